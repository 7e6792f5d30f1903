import Verif.Discovery.AnswerSpec
import Verif.Discovery.QueryProps
import Verif.Discovery.ReportProps

/-! # Reading responses -/

namespace Verif.Discovery

open Spec

theorem at_take {msg x y : Bytes} {pos : Nat} (h : At msg pos (x ++ y)) : At msg pos x ∧ At msg (pos + x.length) y := by
  obtain ⟨a, b, rfl, hl⟩ := h
  exact ⟨⟨a, y ++ b, by simp, hl⟩, ⟨a ++ x, b, by simp, by simp [hl]⟩⟩

theorem get16_at {msg : Bytes} {pos n : Nat} (h : At msg pos (be16 n)) : get16 msg pos = .ok (n % 65536, pos + 2) := by
  obtain ⟨b, hb⟩ := at_drop h
  unfold get16
  rw [hb, rd16_be16]; rfl

theorem get32_at {msg : Bytes} {pos n : Nat} (h : At msg pos (be32 n)) : get32 msg pos = .ok (n % 4294967296, pos + 4) := by
  obtain ⟨b, hb⟩ := at_drop h
  unfold get32
  rw [hb, rd32_be32]; rfl

theorem getAddrStr_at {msg : Bytes} {pos stop : Nat} {ls : List Bytes} (h : NameAt msg pos ls stop) (hl : msg.length ≤ 4096) :
    getAddrStr msg pos = .ok (dotted ls, stop) := by
  unfold getAddrStr
  rw [C42_decoder h hl, ← dotted_eq]; rfl

theorem endsWith_iff (s e : Bytes) : Text.endsWith s e = true ↔ e <:+ s := by
  unfold Text.endsWith
  constructor
  · intro h
    split at h
    · rw [beq_iff_eq] at h; rw [← h]; exact List.drop_suffix _ _
    · cases h
  · rintro ⟨t, rfl⟩; simp

theorem getString_at {msg l : Bytes} {pos : Nat} (h2 : l.length ≤ 255) (h : At msg pos (UInt8.ofNat l.length :: l)) :
    getLabel msg pos = .ok (l, pos + 1 + l.length) := by
  obtain ⟨b, hb⟩ := at_drop h
  have hd : msg.drop (pos + 1) = l ++ b := by rw [← List.drop_drop, hb]; rfl
  have e : (UInt8.ofNat l.length).toNat = l.length := by rw [UInt8.toNat_ofNat']; omega
  unfold getLabel get8
  rw [hb]
  simp only [rd8, List.cons_append, Outcome.bind_ok, Outcome.pure_eq]
  rw [e, hd, rdBytes_append l b _ rfl]; rfl

/-- The text of an address. -/
theorem get_ip {msg : Bytes} {pos : Nat} {a b c d : UInt8} (h : At msg pos [a, b, c, d]) :
    ∃ ip, get32 msg pos = .ok (ip, pos + 4) ∧ ip4str ip = quad a b c d := by
  obtain ⟨r, hr⟩ := at_drop h
  refine ⟨a.toNat * 16777216 + b.toNat * 65536 + c.toNat * 256 + d.toNat, ?_, ?_⟩
  · unfold get32
    rw [hr]; rfl
  · have := a.toNat_lt; have := b.toNat_lt; have := c.toNat_lt; have := d.toNat_lt
    unfold ip4str quad number decimal
    rw [show (a.toNat * 16777216 + b.toNat * 65536 + c.toNat * 256 + d.toNat) / 16777216 % 256 = a.toNat by omega,
      show (a.toNat * 16777216 + b.toNat * 65536 + c.toNat * 256 + d.toNat) / 65536 % 256 = b.toNat by omega,
      show (a.toNat * 16777216 + b.toNat * 65536 + c.toNat * 256 + d.toNat) / 256 % 256 = c.toNat by omega,
      show (a.toNat * 16777216 + b.toNat * 65536 + c.toNat * 256 + d.toNat) % 256 = d.toNat by omega]

/-! ## Keys and values -/

theorem valueIn_eq {key : Bytes} (hk : 61 ∉ key) (s : Bytes) :
    valueIn key s = if s.takeWhile (· ≠ 61) = key then some (if 61 ∈ s then (s.dropWhile (· ≠ 61)).drop 1 else s) else none := by
  unfold valueIn
  by_cases hs : 61 ∈ s
  · obtain ⟨k, v, rfl, hk'⟩ : ∃ k v, s = k ++ 61 :: v ∧ 61 ∉ k := by
      clear hk key
      induction s with
      | nil => cases hs
      | cons c s ih =>
        by_cases hc : c = 61
        · exact ⟨[], s, by rw [hc]; rfl, by simp⟩
        · obtain ⟨k, v, rfl, hn⟩ := ih ((List.mem_cons.1 hs).resolve_left (fun h => hc h.symm))
          exact ⟨c :: k, v, rfl, fun h => (List.mem_cons.1 h).elim (fun h => hc h.symm) hn⟩
    have hd : ∀ x ∈ k, decide (x ≠ 61) = true := by intro x hx; simp; rintro rfl; exact hk' hx
    rw [takeWhile_all (r := 61 :: v) hd (by simp), dropWhile_all (r := 61 :: v) hd (by simp), if_pos hs]
    rw [if_neg (by rintro rfl; exact hk (by simp))]
    by_cases he : k = key
    · subst he
      rw [if_pos rfl, if_pos ⟨v, by simp⟩]
      simp
    · rw [if_neg he, if_neg]
      rintro ⟨t, ht⟩
      apply he
      have := congrArg (List.takeWhile (· ≠ 61)) ht
      rw [List.append_assoc, List.singleton_append] at this
      have hd' : ∀ x ∈ key, decide (x ≠ 61) = true := by intro x hx; simp; rintro rfl; exact hk hx
      rw [takeWhile_all (r := 61 :: t) hd' (by simp), takeWhile_all (r := 61 :: v) hd (by simp)] at this
      exact this.symm
  · have hd : ∀ x ∈ s, decide (x ≠ 61) = true := by intro x hx; simp; rintro rfl; exact hs hx
    have e1 := takeWhile_all (r := []) hd (by simp)
    rw [List.append_nil] at e1
    rw [e1, if_neg hs]
    by_cases he : s = key
    · rw [if_pos he, if_pos he]
    · rw [if_neg he, if_neg he, if_neg]
      rintro ⟨t, rfl⟩
      exact hs (by simp)

/-! ## What is known after reading -/

/-- The state holds what the records `rs` say. -/
structure Knows (rs : List Record) (s : St) : Prop where
  ports : ∀ n, s.ports.get? n = (services rs n).getLast?.map Prod.fst
  targets : ∀ n, s.targets.get? n = (services rs n).getLast?.map Prod.snd
  as : ∀ n, s.as.get? n = if addresses rs n = [] then none else some (addresses rs n)
  txts : ∀ n k, 61 ∉ k → (s.txts.get? n).bind (fun m => m.get? k) = (values rs n k).getLast?
  has : ∀ n, (s.txts.get? n).isSome ↔ texts rs n ≠ []

theorem services_append (rs rs' : List Record) (n : Bytes) : services (rs ++ rs') n = services rs n ++ services rs' n := List.filterMap_append
theorem addresses_append (rs rs' : List Record) (n : Bytes) : addresses (rs ++ rs') n = addresses rs n ++ addresses rs' n := List.filterMap_append
theorem pointers_append (sv : Bytes) (rs rs' : List Record) : pointers sv (rs ++ rs') = pointers sv rs ++ pointers sv rs' := List.filterMap_append
theorem texts_append (rs rs' : List Record) (n : Bytes) : texts (rs ++ rs') n = texts rs n ++ texts rs' n := List.flatMap_append
theorem values_append (rs rs' : List Record) (n k : Bytes) : values (rs ++ rs') n k = values rs n k ++ values rs' n k := by
  unfold values; rw [texts_append, List.filterMap_append]

/-- Only what a record says about ports, addresses and texts matters. -/
theorem Knows.congr {rs rs' : List Record} {s : St} (h : Knows rs s) (h1 : services rs' = services rs) (h2 : addresses rs' = addresses rs)
    (h3 : texts rs' = texts rs) : Knows rs' s :=
  ⟨by rw [h1]; exact h.ports, by rw [h1]; exact h.targets, by rw [h2]; exact h.as, by unfold values; rw [h3]; exact h.txts, by rw [h3]; exact h.has⟩

theorem Knows.text {rs : List Record} {s : St} {name : List Bytes} {strings : List Bytes} (h : Knows (rs ++ [⟨name, .txt strings⟩]) s) (t : Bytes) :
    Knows (rs ++ [⟨name, .txt (strings ++ [t])⟩]) { s with txts := s.txts.assign (dotted name) (((s.txts.get? (dotted name)).getD []).assign
      (t.takeWhile (· ≠ 61)) (if 61 ∈ t then (t.dropWhile (· ≠ 61)).drop 1 else t)) } := by
  have e1 : services (rs ++ [⟨name, .txt (strings ++ [t])⟩]) = services (rs ++ [⟨name, .txt strings⟩]) := by
    funext n; rw [services_append, services_append]; rfl
  have e2 : addresses (rs ++ [⟨name, .txt (strings ++ [t])⟩]) = addresses (rs ++ [⟨name, .txt strings⟩]) := by
    funext n; rw [addresses_append, addresses_append]; rfl
  have e3 : ∀ n, texts (rs ++ [⟨name, .txt (strings ++ [t])⟩]) n = texts (rs ++ [⟨name, .txt strings⟩]) n ++ if dotted name = n then [t] else [] := by
    intro n; rw [texts_append, texts_append, List.append_assoc]; congr 1; unfold texts; simp; split <;> simp
  refine ⟨by rw [e1]; exact h.ports, by rw [e1]; exact h.targets, by rw [e2]; exact h.as, fun n k hk => ?_, fun n => ?_⟩
  · have hv := h.txts n k hk
    have ev : values (rs ++ [⟨name, .txt (strings ++ [t])⟩]) n k =
        values (rs ++ [⟨name, .txt strings⟩]) n k ++ if dotted name = n then (valueIn k t).toList else [] := by
      unfold values; rw [e3, List.filterMap_append]
      split
      · cases h : valueIn k t <;> simp [h]
      · simp
    rw [ev]
    simp only [KMap.get?_assign_any]
    by_cases hn : n = dotted name
    · subst hn
      rw [if_pos rfl, if_pos rfl, Option.bind_some, KMap.get?_assign_any, valueIn_eq hk]
      by_cases hkk : k = t.takeWhile (· ≠ 61)
      · rw [if_pos hkk, if_pos hkk.symm]; simp
      · rw [if_neg hkk, if_neg (fun h => hkk h.symm)]
        simp only [Option.toList_none, List.append_nil]
        rw [← hv]
        cases s.txts.get? (dotted name) with
        | none => rfl
        | some m => rfl
    · rw [if_neg hn, if_neg (fun h => hn h.symm), List.append_nil, hv]
  · rw [e3]
    simp only [KMap.get?_assign_any]
    by_cases hn : n = dotted name
    · subst hn; simp
    · rw [if_neg hn, if_neg (fun h => hn h.symm), List.append_nil]; exact h.has n

theorem readTxts_at {msg : Bytes} {name : List Bytes} {rs : List Record} (stop : Nat) : ∀ (strings done : List Bytes) (fuel : Nat) (r : Reading),
    (∀ s ∈ strings, s.length ≤ 255) → At msg r.pos (textBytes strings) → stop = r.pos + (textBytes strings).length → strings.length ≤ fuel →
    Knows (rs ++ [⟨name, .txt done⟩]) r.st → ∃ s, readTxts msg (dotted name) stop fuel r = (true, { r with st := s, pos := stop }) ∧
      Knows (rs ++ [⟨name, .txt (done ++ strings)⟩]) s ∧ s.ippPtrs = r.st.ippPtrs ∧ s.ippsPtrs = r.st.ippsPtrs := by
  intro strings
  induction strings with
  | nil =>
    intro done fuel r _ _ hs _ hk
    have hp : stop = r.pos := by simpa [textBytes] using hs
    refine ⟨r.st, ?_, by simpa using hk, rfl, rfl⟩
    cases fuel with
    | zero => unfold readTxts; simp [hp]
    | succ fuel => unfold readTxts; rw [if_neg (by omega), hp]
  | cons t strings ih =>
    intro done fuel r hlen hat hs hf hk
    obtain ⟨fuel, rfl⟩ : ∃ f, fuel = f + 1 := ⟨fuel - 1, by simp at hf; omega⟩
    have e : textBytes (t :: strings) = (UInt8.ofNat t.length :: t) ++ textBytes strings := rfl
    rw [e] at hat hs
    obtain ⟨h1, h2⟩ := at_take hat
    simp only [List.length_append, List.length_cons] at hs h2
    unfold readTxts
    rw [if_pos (by omega), getString_at (hlen t (List.mem_cons_self ..)) h1]
    simp only
    obtain ⟨s, hr, hk', hp⟩ := ih (done ++ [t]) fuel { r with st := _, pos := r.pos + 1 + t.length } (fun x hx => hlen x (List.mem_cons_of_mem _ hx))
      (by rw [show r.pos + 1 + t.length = r.pos + (t.length + 1) by omega]; exact h2) (by simp only; omega) (by simpa using hf) (hk.text t)
    exact ⟨s, hr, by simpa using hk', hp⟩

theorem services_apart {n : Bytes} (h : ippService <:+ n) : ¬ ippsService <:+ n := by
  rintro ⟨b, hb⟩
  obtain ⟨a, ha⟩ := h
  have h1 : (n.reverse)[11]? = some 112 := by
    rw [← ha, List.reverse_append]
    rw [List.getElem?_append_left (by decide)]; decide +kernel
  have h2 : (n.reverse)[11]? = some 115 := by
    rw [← hb, List.reverse_append]
    rw [List.getElem?_append_left (by decide)]; decide +kernel
  rw [h1] at h2; cases h2

/-- Reading one record. -/
structure Read (rs new : List Record) (r r' : Reading) : Prop where
  knows : Knows (rs ++ new) r'.st
  ipp : r'.newIppPtrs = r.newIppPtrs ++ pointers ippService new
  ipps : r'.newIppsPtrs = r.newIppsPtrs ++ pointers ippsService new
  targets : ∀ t, t ∈ r'.newTargets ↔ t ∈ r.newTargets ∨ ∃ n port, (port, t) ∈ services new n
  oldIpp : r'.st.ippPtrs = r.st.ippPtrs
  oldIpps : r'.st.ippsPtrs = r.st.ippsPtrs

theorem readRecord_at {msg : Bytes} (hl : msg.length ≤ 4096) {rs : List Record} {rec : Record} {r : Reading} {stop : Nat}
    (h : RecordAt msg r.pos rec stop) (hk : Knows rs r.st) : ∃ r', readRecord msg r = (true, r') ∧ r'.pos = stop ∧ Read rs [rec] r r' := by
  obtain ⟨name, data⟩ := rec
  obtain ⟨p, type, len, hname, ⟨hlen, cls, ttl, hhead⟩, hdata, rfl⟩ := h
  simp only at hname hdata
  have htype : type < 65536 := by cases hdata <;> omega
  have h1 := at_take hhead
  have h2 := at_take h1.1
  have h3 := at_take h2.1
  have g2 : get16 msg (p + 2) = .ok (cls % 65536, p + 4) := get16_at h3.2
  have g3 : get32 msg (p + 4) = .ok (ttl % 4294967296, p + 8) := get32_at h2.2
  have g4 : get16 msg (p + 8) = .ok (len % 65536, p + 10) := get16_at h1.2
  have head : (do
      let a ← getAddrStr msg r.pos
      let t ← get16 msg a.2
      let f ← get16 msg t.2
      let l ← get32 msg f.2
      let n ← get16 msg l.2
      pure (a.1, t.1, n.1, n.2) : Outcome (Bytes × Nat × Nat × Nat)) = .ok (dotted name, type, len, p + 10) := by
    rw [getAddrStr_at hname hl]
    simp only [Outcome.bind_ok]
    rw [get16_at h3.1]
    simp only [Outcome.bind_ok]
    rw [g2]
    simp only [Outcome.bind_ok]
    rw [g3]
    simp only [Outcome.bind_ok]
    rw [g4, Nat.mod_eq_of_lt htype, Nat.mod_eq_of_lt hlen]
    rfl
  unfold readRecord
  simp only []
  rw [head]
  simp only []
  cases hdata with
  | @ptr _ target hn =>
    rw [if_pos rfl, getAddrStr_at hn hl]
    simp only []
    rw [show ascii "_ipp._tcp.local" = ippService from rfl, show ascii "_ipps._tcp.local" = ippsService from rfl]
    have hk' : Knows (rs ++ [⟨name, .ptr target⟩]) r.st := hk.congr (by funext n; rw [services_append]; simp [services])
      (by funext n; rw [addresses_append]; simp [addresses]) (by funext n; rw [texts_append]; simp [texts])
    have ht : ∀ n port t, (port, t) ∉ services [⟨name, .ptr target⟩] n := by intro n port t h; simp [services] at h
    by_cases hi : ippService <:+ dotted name
    · rw [if_pos ((endsWith_iff _ _).2 hi)]
      refine ⟨_, rfl, rfl, hk', by simp [pointers, hi], by simp [pointers, services_apart hi], ?_, rfl, rfl⟩
      intro t; simp [ht]
    · rw [if_neg (fun h => hi ((endsWith_iff _ _).1 h))]
      by_cases hi' : ippsService <:+ dotted name
      · rw [if_pos ((endsWith_iff _ _).2 hi')]
        refine ⟨_, rfl, rfl, hk', by simp [pointers, hi], by simp [pointers, hi'], ?_, rfl, rfl⟩
        intro t; simp [ht]
      · rw [if_neg (fun h => hi' ((endsWith_iff _ _).1 h))]
        refine ⟨_, rfl, rfl, hk', by simp [pointers, hi], by simp [pointers, hi'], ?_, rfl, rfl⟩
        intro t; simp [ht]
  | @txt _ strings hs hat hlen =>
    rw [if_neg (by omega), if_pos rfl]
    have hk' : Knows (rs ++ [⟨name, .txt []⟩]) r.st := hk.congr (by funext n; rw [services_append]; simp [services])
      (by funext n; rw [addresses_append]; simp [addresses]) (by funext n; rw [texts_append]; simp [texts])
    have hcount : ∀ l : List Bytes, l.length ≤ (textBytes l).length := by
      intro l
      induction l with
      | nil => simp
      | cons a l ih => simp [textBytes] at ih ⊢; omega
    have hfit : (textBytes strings).length ≤ msg.length := by
      obtain ⟨a, b, rfl, _⟩ := hat; simp; omega
    obtain ⟨s, hr, hk2, ho1, ho2⟩ := readTxts_at (msg := msg) (p + 10 + len) strings [] msg.length { r with pos := p + 10 } hs hat (by rw [hlen])
      (Nat.le_trans (hcount _) hfit) hk'
    rw [hr]
    refine ⟨_, rfl, rfl, by simpa using hk2, by simp [pointers], by simp [pointers], ?_, ho1, ho2⟩
    intro t; simp [services]
  | @srv _ priority weight port target hp hat hn =>
    rw [if_neg (by omega), if_neg (by omega), if_pos rfl]
    have g1 := at_take hat
    have g2 := at_take g1.1
    have k2 : get16 msg (p + 10 + 2) = .ok (weight % 65536, p + 10 + 4) := get16_at g2.2
    have k3 : get16 msg (p + 10 + 4) = .ok (port % 65536, p + 10 + 6) := get16_at g1.2
    rw [get16_at g2.1]
    simp only [Outcome.bind_ok]
    rw [k2]
    simp only [Outcome.bind_ok]
    rw [k3]
    simp only [Outcome.bind_ok]
    rw [getAddrStr_at hn hl, Nat.mod_eq_of_lt hp]
    simp only [Outcome.bind_ok, Outcome.pure_eq]
    have es : ∀ n, services (rs ++ [⟨name, .srv priority weight port target⟩]) n =
        services rs n ++ if dotted name = n then [(port, dotted target)] else [] := by
      intro n; rw [services_append]; congr 1; unfold services; rw [List.filterMap_cons]; simp only [List.filterMap_nil]; split <;> simp_all
    refine ⟨_, rfl, rfl, ⟨?_, ?_, ?_, ?_, ?_⟩, by simp [pointers], by simp [pointers], ?_, rfl, rfl⟩
    · intro n; rw [es]; simp only [KMap.get?_assign_any]
      by_cases hn : n = dotted name
      · subst hn; simp
      · rw [if_neg hn, if_neg (fun h => hn h.symm), List.append_nil]; exact hk.ports n
    · intro n; rw [es]; simp only [KMap.get?_assign_any]
      by_cases hn : n = dotted name
      · subst hn; simp
      · rw [if_neg hn, if_neg (fun h => hn h.symm), List.append_nil]; exact hk.targets n
    · intro n; rw [addresses_append]; simpa [addresses] using hk.as n
    · intro n k hkk; rw [values_append]; simpa [values, texts] using hk.txts n k hkk
    · intro n; rw [texts_append]; simpa [texts] using hk.has n
    · intro t
      have : (∃ n port', (port', t) ∈ services [⟨name, .srv priority weight port target⟩] n) ↔ t = dotted target := by
        simp [services, eq_comm]
      rw [this]
      simp only []
      split
      · rename_i hm
        constructor
        · exact .inl
        · rintro (h | rfl)
          · exact h
          · exact hm
      · simp
  | @a a b c d hat =>
    rw [if_neg (by omega), if_neg (by omega), if_neg (by omega), if_pos rfl]
    obtain ⟨ip, hip, hq⟩ := get_ip hat
    rw [hip]
    simp only []
    have es : ∀ n, addresses (rs ++ [⟨name, .a a b c d⟩]) n = addresses rs n ++ if dotted name = n then [quad a b c d] else [] := by
      intro n; rw [addresses_append]; congr 1; unfold addresses; rw [List.filterMap_cons]; simp only [List.filterMap_nil]; split <;> simp_all
    refine ⟨_, rfl, rfl, ⟨?_, ?_, ?_, ?_, ?_⟩, by simp [pointers], by simp [pointers], ?_, rfl, rfl⟩
    · intro n; rw [services_append]; simpa [services] using hk.ports n
    · intro n; rw [services_append]; simpa [services] using hk.targets n
    · intro n; rw [es]; simp only [KMap.get?_assign_any]
      by_cases hn : n = dotted name
      · subst hn
        rw [if_pos rfl, if_pos rfl, hk.as, hq]
        by_cases ha : addresses rs (dotted name) = []
        · rw [if_pos ha, ha]; simp
        · rw [if_neg ha]; simp
      · rw [if_neg hn]; rw [if_neg (c := dotted name = n) (fun h => hn h.symm), List.append_nil]; exact hk.as n
    · intro n k hkk; rw [values_append]; simpa [values, texts] using hk.txts n k hkk
    · intro n; rw [texts_append]; simpa [texts] using hk.has n
    · intro t; simp [services]
  | @other _ _ data ht n12 n16 n33 n1 hat hdl =>
    rw [if_neg n12, if_neg n16, if_neg n33, if_neg n1]
    refine ⟨_, rfl, rfl, ?_, by simp [pointers], by simp [pointers], ?_, rfl, rfl⟩
    · exact hk.congr (by funext n; rw [services_append]; simp [services])
        (by funext n; rw [addresses_append]; simp [addresses]) (by funext n; rw [texts_append]; simp [texts])
    · intro t; simp [services]

theorem readRecords_at {msg : Bytes} (hl : msg.length ≤ 4096) : ∀ (new rs : List Record) (r : Reading), RecordsAt msg r.pos new → Knows rs r.st →
    Read rs new r (readRecords msg new.length r) := by
  intro new
  induction new with
  | nil => intro rs r _ hk; exact ⟨by simpa [readRecords] using hk, by simp [readRecords, pointers], by simp [readRecords, pointers], by simp [readRecords, services], rfl, rfl⟩
  | cons rec new ih =>
    intro rs r hat hk
    cases hat with
    | cons h1 h2 =>
      obtain ⟨r', hr, hp, hread⟩ := readRecord_at hl h1 hk
      rw [← hp] at h2
      have h := ih (rs ++ [rec]) r' h2 hread.knows
      rw [List.length_cons, readRecords, hr]
      simp only []
      have ec : rec :: new = [rec] ++ new := rfl
      refine ⟨by simpa using h.knows, ?_, ?_, ?_, h.oldIpp.trans hread.oldIpp, h.oldIpps.trans hread.oldIpps⟩
      · rw [h.ipp, hread.ipp, ec, pointers_append, List.append_assoc]
      · rw [h.ipps, hread.ipps, ec, pointers_append, List.append_assoc]
      · intro t
        rw [h.targets, hread.targets, ec]
        simp only [services_append, List.mem_append, exists_or, or_assoc]

theorem skipQuestions_at {msg : Bytes} (hl : msg.length ≤ 4096) {n pos stop : Nat} (h : QuestionsAt msg n pos stop) : skipQuestions msg n pos = .ok stop := by
  induction h with
  | zero => rfl
  | succ h1 h2 _ ih =>
    obtain ⟨g1, g2⟩ := at_take h2
    have k2 := get16_at g2
    rw [show ∀ n, (be16 n).length = 2 from fun _ => rfl] at k2
    unfold skipQuestions
    rw [getAddrStr_at h1 hl]
    simp only [Outcome.bind_ok]
    rw [get16_at g1]
    simp only [Outcome.bind_ok]
    rw [k2]
    simp only [Outcome.bind_ok]
    exact ih

theorem readResponse_at {msg : Bytes} (hl : msg.length ≤ 4096) {rs new : List Record} {s : St} (h : Response msg new) (hk : Knows rs s) :
    Read rs new { st := s, newIppPtrs := [], newIppsPtrs := [], newTargets := [], pos := 12 } (readResponse msg s) := by
  obtain ⟨id, flags, questions, answers, authorities, additional, start, b1, b2, b3, b4, hh, hq, hr, hlen⟩ := h
  have h1 := at_take hh
  have h2 := at_take h1.1
  have h3 := at_take h2.1
  have h4 := at_take h3.1
  have q : get16 msg 4 = .ok (questions, 6) := by have := get16_at h4.2; rw [Nat.mod_eq_of_lt b1] at this; exact this
  have an : get16 msg 6 = .ok (answers, 8) := by have := get16_at h3.2; rw [Nat.mod_eq_of_lt b2] at this; exact this
  have au : get16 msg 8 = .ok (authorities, 10) := by have := get16_at h2.2; rw [Nat.mod_eq_of_lt b3] at this; exact this
  have ad : get16 msg 10 = .ok (additional, 12) := by have := get16_at h1.2; rw [Nat.mod_eq_of_lt b4] at this; exact this
  unfold readResponse
  simp only [q, an, au, ad, Outcome.bind_ok, skipQuestions_at hl hq, Outcome.pure_eq]
  rw [← hlen]
  have := readRecords_at hl new rs { st := s, newIppPtrs := [], newIppsPtrs := [], newTargets := [], pos := start } hr hk
  exact ⟨this.knows, this.ipp, this.ipps, this.targets, this.oldIpp, this.oldIpps⟩

end Verif.Discovery
