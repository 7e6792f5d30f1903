import Verif.Discovery.CutSpec
import Verif.Discovery.FollowUp

/-! # Reading datagrams that are cut off, or are no responses -/

namespace Verif.Discovery

open Spec

/-! ## What can be read of the beginning of a message is what the message says -/

theorem drop_more {m : Bytes} {pos : Nat} (t : Bytes) (h : m.drop pos ≠ []) : (m ++ t).drop pos = m.drop pos ++ t := by
  have : pos < m.length := by
    apply Classical.byContradiction
    intro hn
    exact h (List.drop_eq_nil_of_le (by omega))
  rw [List.drop_append_of_le_length (by omega)]

theorem rd8_more {m : Bytes} {pos b : Nat} (t : Bytes) (h : rd8 (m.drop pos) = .ok (b, m.drop (pos + 1))) :
    rd8 ((m ++ t).drop pos) = .ok (b, (m ++ t).drop (pos + 1)) := by
  obtain ⟨x, hd, hx⟩ := rd8_cons h
  have e := drop_more t (m := m) (pos := pos) (by rw [hd]; simp)
  rw [hd] at e
  have e2 : (m ++ t).drop pos = x :: (m.drop (pos + 1) ++ t) := e
  rw [rd8_drop e2, hx]

theorem get8_more {m : Bytes} {pos : Nat} {x : Nat × Nat} (t : Bytes) (h : get8 m pos = .ok x) : get8 (m ++ t) pos = .ok x := by
  unfold get8 at h ⊢
  cases hd : m.drop pos with
  | nil => rw [hd] at h; cases h
  | cons a r => rw [drop_more t (by rw [hd]; simp), hd]; rw [hd] at h; exact h

theorem get16_more {m : Bytes} {pos : Nat} {x : Nat × Nat} (t : Bytes) (h : get16 m pos = .ok x) : get16 (m ++ t) pos = .ok x := by
  unfold get16 at h ⊢
  match hd : m.drop pos with
  | [] => rw [hd] at h; cases h
  | [a] => rw [hd] at h; cases h
  | a :: b :: r => rw [drop_more t (by rw [hd]; simp), hd]; rw [hd] at h; exact h

theorem get32_more {m : Bytes} {pos : Nat} {x : Nat × Nat} (t : Bytes) (h : get32 m pos = .ok x) : get32 (m ++ t) pos = .ok x := by
  unfold get32 at h ⊢
  match hd : m.drop pos with
  | [] => rw [hd] at h; cases h
  | [a] => rw [hd] at h; cases h
  | [a, b] => rw [hd] at h; cases h
  | [a, b, c] => rw [hd] at h; cases h
  | a :: b :: c :: d :: r => rw [drop_more t (by rw [hd]; simp), hd]; rw [hd] at h; exact h

theorem getLabel_more {m : Bytes} {pos : Nat} {x : Bytes × Nat} (t : Bytes) (h : getLabel m pos = .ok x) : getLabel (m ++ t) pos = .ok x := by
  unfold getLabel at h ⊢
  simp only [Outcome.bind_eq_ok] at h
  obtain ⟨l, h8, s, hs, hx⟩ := h
  rw [get8_more t h8]
  simp only [Outcome.bind_ok]
  obtain ⟨s1, s2⟩ := s
  have hl := rdBytes_ok hs
  have hp : l.2 ≤ m.length := by
    unfold get8 at h8
    cases hd : m.drop pos with
    | nil => rw [hd] at h8; cases h8
    | cons a r =>
      rw [hd] at h8
      cases h8
      have := congrArg List.length hd
      simp at this ⊢
      omega
  rw [List.drop_append_of_le_length hp, hl.1, List.append_assoc, rdBytes_append _ _ _ hl.2]
  exact hx

theorem getAddr_more {m : Bytes} (t : Bytes) {pos : Nat} {seen : List Nat} {o : Outcome (List Bytes × Nat)} (h : GetAddr m pos seen o) :
    ∀ x, o = .ok x → GetAddr (m ++ t) pos seen (.ok x) := by
  induction h with
  | root h8 => intro x hx; cases hx; exact .root (rd8_more t h8)
  | reference h8 hc h hs _ ih => intro x hx; cases hx; exact .reference (rd8_more t h8) hc (get16_more t h) hs (ih _ rfl)
  | label h8 hb hc h _ ih => intro x hx; cases hx; exact .label (rd8_more t h8) hb hc (getLabel_more t h) (ih _ rfl)
  | short => nofun
  | half => nofun
  | circular => nofun
  | referenceThrows => nofun
  | labelThrows => nofun
  | restThrows => nofun

theorem getAddrStr_more {m : Bytes} {pos : Nat} {x : Bytes × Nat} (t : Bytes) (h : getAddrStr m pos = .ok x) : getAddrStr (m ++ t) pos = .ok x := by
  unfold getAddrStr at h ⊢
  simp only [Outcome.bind_eq_ok] at h
  obtain ⟨a, ha, hx⟩ := h
  rw [getAddr_eq (getAddr_more t (getAddr_runs m pos) a ha)]
  exact hx

theorem skipQuestions_more {m : Bytes} (t : Bytes) : ∀ {n pos stop : Nat}, skipQuestions m n pos = .ok stop → skipQuestions (m ++ t) n pos = .ok stop := by
  intro n
  induction n with
  | zero => intro pos stop h; exact h
  | succ n ih =>
    intro pos stop h
    unfold skipQuestions at h ⊢
    simp only [Outcome.bind_eq_ok] at h
    obtain ⟨a, ha, b, hb, c, hc, h⟩ := h
    simp only [getAddrStr_more t ha, get16_more t hb, get16_more t hc, Outcome.bind_ok]
    exact ih h

/-! ## The parts of a record -/

/-- Lines 293-294: the name, the type, the length of the data and where it begins. -/
def headOf (msg : Bytes) (pos : Nat) : Outcome (Bytes × Nat × Nat × Nat) := do
  let a ← getAddrStr msg pos
  let t ← get16 msg a.2
  let f ← get16 msg t.2
  let l ← get32 msg f.2
  let n ← get16 msg l.2
  pure (a.1, t.1, n.1, n.2)

/-- The data of a record with a service. -/
def serviceOf (msg : Bytes) (pos : Nat) : Outcome (Nat × Bytes × Nat) := do
  let p ← get16 msg pos
  let w ← get16 msg p.2
  let port ← get16 msg w.2
  let t ← getAddrStr msg port.2
  pure (port.1, t.1, t.2)

theorem headOf_more {m : Bytes} {pos : Nat} {x : Bytes × Nat × Nat × Nat} (t : Bytes) (h : headOf m pos = .ok x) : headOf (m ++ t) pos = .ok x := by
  unfold headOf at h ⊢
  simp only [Outcome.bind_eq_ok] at h
  obtain ⟨a, ha, b, hb, c, hc, d, hd, e, he, h⟩ := h
  simp only [getAddrStr_more t ha, get16_more t hb, get16_more t hc, get32_more t hd, get16_more t he, Outcome.bind_ok]
  exact h

theorem serviceOf_more {m : Bytes} {pos : Nat} {x : Nat × Bytes × Nat} (t : Bytes) (h : serviceOf m pos = .ok x) : serviceOf (m ++ t) pos = .ok x := by
  unfold serviceOf at h ⊢
  simp only [Outcome.bind_eq_ok] at h
  obtain ⟨a, ha, b, hb, c, hc, d, hd, h⟩ := h
  simp only [getAddrStr_more t hd, get16_more t ha, get16_more t hb, get16_more t hc, Outcome.bind_ok]
  exact h

theorem readRecord_parts (msg : Bytes) (r : Reading) : readRecord msg r =
    match headOf msg r.pos with
    | .ok (aaddr, atype, len, pos) =>
      if atype = 12 then
        match getAddrStr msg pos with
        | .ok (name, p) =>
          if Text.endsWith aaddr (ascii "_ipp._tcp.local") then (true, { r with newIppPtrs := r.newIppPtrs ++ [name], pos := p })
          else if Text.endsWith aaddr (ascii "_ipps._tcp.local") then (true, { r with newIppsPtrs := r.newIppsPtrs ++ [name], pos := p })
          else (true, { r with pos := p })
        | _ => (false, r)
      else if atype = 16 then readTxts msg aaddr (pos + len) msg.length { r with pos := pos }
      else if atype = 33 then
        match serviceOf msg pos with
        | .ok (port, target, p) =>
          (true, { r with st := { r.st with ports := r.st.ports.assign aaddr port, targets := r.st.targets.assign aaddr target },
                          newTargets := if target ∈ r.newTargets then r.newTargets else r.newTargets ++ [target], pos := p })
        | _ => (false, r)
      else if atype = 1 then
        match get32 msg pos with
        | .ok (ip, p) => (true, { r with st := { r.st with as := r.st.as.assign aaddr (((r.st.as.get? aaddr).getD []) ++ [ip4str ip]) }, pos := p })
        | _ => (false, r)
      else (true, { r with pos := pos + len })
    | _ => (false, r) := rfl

theorem readTxts_more {m : Bytes} (t aaddr : Bytes) (stop : Nat) : ∀ (fuel fuel' : Nat) (r r' : Reading), fuel ≤ fuel' →
    readTxts m aaddr stop fuel r = (true, r') → readTxts (m ++ t) aaddr stop fuel' r = (true, r') := by
  intro fuel
  induction fuel with
  | zero =>
    intro fuel' r r' _ h
    unfold readTxts at h
    simp only [Prod.mk.injEq, decide_eq_true_eq] at h
    obtain ⟨hp, rfl⟩ := h
    cases fuel' with
    | zero => unfold readTxts; simp [hp]
    | succ f => unfold readTxts; rw [if_neg (by omega)]
  | succ fuel ih =>
    intro fuel' r r' hf h
    obtain ⟨f, rfl⟩ : ∃ f, fuel' = f + 1 := ⟨fuel' - 1, by omega⟩
    unfold readTxts at h ⊢
    by_cases hp : r.pos < stop
    · rw [if_pos hp] at h ⊢
      cases hl : getLabel m r.pos with
      | ok x =>
        rw [hl] at h
        rw [getLabel_more t hl]
        exact ih f _ _ (by omega) h
      | throws e => rw [hl] at h; cases h
      | ub => rw [hl] at h; cases h
      | hang => rw [hl] at h; cases h
    · rw [if_neg hp] at h ⊢
      exact h

theorem readRecord_more {m : Bytes} (t : Bytes) {r r' : Reading} (h : readRecord m r = (true, r')) : readRecord (m ++ t) r = (true, r') := by
  rw [readRecord_parts] at h ⊢
  cases hh : headOf m r.pos with
  | throws e => rw [hh] at h; cases h
  | ub => rw [hh] at h; cases h
  | hang => rw [hh] at h; cases h
  | ok x =>
    obtain ⟨aaddr, atype, len, pos⟩ := x
    rw [hh] at h
    rw [headOf_more t hh]
    simp only [] at h ⊢
    by_cases h12 : atype = 12
    · rw [if_pos h12] at h ⊢
      cases hn : getAddrStr m pos with
      | ok x => rw [hn] at h; rw [getAddrStr_more t hn]; exact h
      | throws e => rw [hn] at h; cases h
      | ub => rw [hn] at h; cases h
      | hang => rw [hn] at h; cases h
    rw [if_neg h12] at h ⊢
    by_cases h16 : atype = 16
    · rw [if_pos h16] at h ⊢
      exact readTxts_more t aaddr _ _ _ _ _ (by simp) h
    rw [if_neg h16] at h ⊢
    by_cases h33 : atype = 33
    · rw [if_pos h33] at h ⊢
      cases hn : serviceOf m pos with
      | ok x => rw [hn] at h; rw [serviceOf_more t hn]; exact h
      | throws e => rw [hn] at h; cases h
      | ub => rw [hn] at h; cases h
      | hang => rw [hn] at h; cases h
    rw [if_neg h33] at h ⊢
    by_cases h1 : atype = 1
    · rw [if_pos h1] at h ⊢
      cases hn : get32 m pos with
      | ok x => rw [hn] at h; rw [get32_more t hn]; exact h
      | throws e => rw [hn] at h; cases h
      | ub => rw [hn] at h; cases h
      | hang => rw [hn] at h; cases h
    rw [if_neg h1] at h ⊢
    exact h

/-! ## Reading step by step -/

theorem Read.nothing {rs : List Record} {r : Reading} (hk : Knows rs r.st) (p : Nat) : Read rs [] r { r with pos := p } :=
  ⟨by simpa using hk, by simp [pointers], by simp [pointers], by simp [services], rfl, rfl⟩

theorem Read.after {rs new new' : List Record} {r r' r'' : Reading} (h : Read rs new r r') (h' : Read (rs ++ new) new' r' r'') :
    Read rs (new ++ new') r r'' := by
  refine ⟨by simpa using h'.knows, ?_, ?_, ?_, h'.oldIpp.trans h.oldIpp, h'.oldIpps.trans h.oldIpps⟩
  · rw [h'.ipp, h.ipp, pointers_append, List.append_assoc]
  · rw [h'.ipps, h.ipps, pointers_append, List.append_assoc]
  · intro t
    rw [h'.targets, h.targets]
    simp only [services_append, List.mem_append, exists_or, or_assoc]

theorem knows_text {rs : List Record} {s : St} (hk : Knows rs s) (name : List Bytes) : Knows (rs ++ [⟨name, .txt []⟩]) s :=
  hk.congr (by funext n; rw [services_append]; simp [services])
    (by funext n; rw [addresses_append]; simp [addresses]) (by funext n; rw [texts_append]; simp [texts])

theorem headOf_at {msg : Bytes} (hl : msg.length ≤ 4096) {pos p type len : Nat} {name : List Bytes} (hname : NameAt msg pos name p)
    (hhead : HeadAt msg p type len) (htype : type < 65536) : headOf msg pos = .ok (dotted name, type, len, p + 10) := by
  obtain ⟨hlen, cls, ttl, hhead⟩ := hhead
  have h1 := at_take hhead
  have h2 := at_take h1.1
  have h3 := at_take h2.1
  have g2 : get16 msg (p + 2) = .ok (cls % 65536, p + 4) := get16_at h3.2
  have g3 : get32 msg (p + 4) = .ok (ttl % 4294967296, p + 8) := get32_at h2.2
  have g4 : get16 msg (p + 8) = .ok (len % 65536, p + 10) := get16_at h1.2
  unfold headOf
  rw [getAddrStr_at hname hl]
  simp only [Outcome.bind_ok]
  rw [get16_at h3.1]
  simp only [Outcome.bind_ok]
  rw [g2]
  simp only [Outcome.bind_ok]
  rw [g3]
  simp only [Outcome.bind_ok]
  rw [g4, Nat.mod_eq_of_lt htype, Nat.mod_eq_of_lt hlen]
  rfl

/-- The strings of a text that is cut off. -/
theorem readTxts_cut {m t : Bytes} {name : List Bytes} {rs : List Record} (stop : Nat) : ∀ (strings done : List Bytes) (fuel : Nat) (r : Reading),
    (∀ s ∈ strings, s.length ≤ 255) → At (m ++ t) r.pos (textBytes strings) → stop = r.pos + (textBytes strings).length →
    Knows (rs ++ [⟨name, .txt done⟩]) r.st → ∃ b s p j, readTxts m (dotted name) stop fuel r = (b, { r with st := s, pos := p }) ∧
      Knows (rs ++ [⟨name, .txt (done ++ strings.take j)⟩]) s ∧ s.ippPtrs = r.st.ippPtrs ∧ s.ippsPtrs = r.st.ippsPtrs := by
  intro strings
  induction strings with
  | nil =>
    intro done fuel r _ _ hs hk
    have hp : stop = r.pos := by simpa [textBytes] using hs
    cases fuel with
    | zero => exact ⟨_, _, _, 0, by unfold readTxts; rfl, by simpa using hk, rfl, rfl⟩
    | succ fuel => exact ⟨true, r.st, r.pos, 0, by unfold readTxts; rw [if_neg (by omega)], by simpa using hk, rfl, rfl⟩
  | cons x strings ih =>
    intro done fuel r hlen hat hs hk
    cases fuel with
    | zero => exact ⟨_, _, _, 0, by unfold readTxts; rfl, by simpa using hk, rfl, rfl⟩
    | succ fuel =>
      have e : textBytes (x :: strings) = (UInt8.ofNat x.length :: x) ++ textBytes strings := rfl
      rw [e] at hat hs
      obtain ⟨h1, h2⟩ := at_take hat
      simp only [List.length_append, List.length_cons] at hs h2
      have hx := getString_at (hlen x (List.mem_cons_self ..)) h1
      unfold readTxts
      rw [if_pos (by omega)]
      cases hg : getLabel m r.pos with
      | ok y =>
        have := getLabel_more t hg
        rw [hx] at this
        cases this
        simp only []
        obtain ⟨b, s, p, j, hr, hk', hp⟩ := ih (done ++ [x]) fuel { r with st := _, pos := r.pos + 1 + x.length } (fun x hx => hlen x (List.mem_cons_of_mem _ hx))
          (by rw [show r.pos + 1 + x.length = r.pos + (x.length + 1) by omega]; exact h2) (by simp only; omega) (hk.text x)
        exact ⟨b, s, p, j + 1, hr, by simpa using hk', hp⟩
      | throws e => exact ⟨false, r.st, r.pos, 0, rfl, by simpa using hk, rfl, rfl⟩
      | ub => exact ⟨false, r.st, r.pos, 0, rfl, by simpa using hk, rfl, rfl⟩
      | hang => exact ⟨false, r.st, r.pos, 0, rfl, by simpa using hk, rfl, rfl⟩

/-- One record of a response that may be cut off. -/
theorem readRecord_cut {m t : Bytes} (hl : (m ++ t).length ≤ 4096) {rs : List Record} {rec : Record} {r : Reading} {stop : Nat}
    (h : RecordAt (m ++ t) r.pos rec stop) (hk : Knows rs r.st) :
    (∃ r', readRecord m r = (true, r') ∧ r'.pos = stop ∧ Read rs [rec] r r') ∨
    ∃ r' new, readRecord m r = (false, r') ∧ Read rs new r r' ∧
      (new = [] ∨ ∃ strings j, rec.data = .txt strings ∧ new = [⟨rec.name, .txt (strings.take j)⟩]) := by
  match hread : readRecord m r with
  | (true, r') =>
    left
    obtain ⟨r2, h2, hp, hr⟩ := readRecord_at hl h hk
    rw [readRecord_more t hread] at h2
    cases h2
    exact ⟨r', rfl, hp, hr⟩
  | (false, r') =>
    right
    refine ⟨r', ?_⟩
    have same : r' = r → ∃ new, (false, r') = (false, r') ∧ Read rs new r r' ∧
      (new = [] ∨ ∃ strings j, rec.data = .txt strings ∧ new = [⟨rec.name, .txt (strings.take j)⟩]) := by
      rintro rfl
      exact ⟨[], rfl, Read.nothing hk r'.pos, .inl rfl⟩
    rw [readRecord_parts] at hread
    cases hh : headOf m r.pos with
    | throws e => rw [hh] at hread; cases hread; exact same rfl
    | ub => rw [hh] at hread; cases hread; exact same rfl
    | hang => rw [hh] at hread; cases hread; exact same rfl
    | ok x =>
      obtain ⟨name, data⟩ := rec
      obtain ⟨p, type, len, hname, hhead, hdata, rfl⟩ := h
      simp only at hname hdata
      have htype : type < 65536 := by cases hdata <;> omega
      have e := headOf_more t hh
      rw [headOf_at hl hname hhead htype] at e
      rw [hh] at hread
      cases e
      simp only [] at hread
      by_cases h12 : type = 12
      · rw [if_pos h12] at hread
        refine same ?_
        split at hread
        · split at hread
          · cases hread
          · split at hread <;> cases hread
        · cases hread; rfl
      rw [if_neg h12] at hread
      by_cases h16 : type = 16
      · rw [if_pos h16] at hread
        cases hdata with
        | ptr => exact absurd rfl h12
        | srv => cases h16
        | a => cases h16
        | other => rename_i h _ _ _; exact absurd h16 h
        | @txt _ strings hs hat hlen =>
          obtain ⟨b, s, p', j, hr, hk2, ho1, ho2⟩ := readTxts_cut (m := m) (t := t) (p + 10 + len) strings [] m.length { r with pos := p + 10 } hs hat (by rw [hlen])
            (knows_text hk name)
          rw [hr] at hread
          cases hread
          refine ⟨[⟨name, .txt (strings.take j)⟩], rfl, ⟨by simpa using hk2, by simp [pointers], by simp [pointers], ?_, ho1, ho2⟩, .inr ⟨strings, j, rfl, rfl⟩⟩
          intro t; simp [services]
      rw [if_neg h16] at hread
      by_cases h33 : type = 33
      · rw [if_pos h33] at hread
        refine same ?_
        split at hread
        · cases hread
        · cases hread; rfl
      rw [if_neg h33] at hread
      by_cases h1 : type = 1
      · rw [if_pos h1] at hread
        refine same ?_
        split at hread
        · cases hread
        · cases hread; rfl
      rw [if_neg h1] at hread
      cases hread

/-- The records of a response that may be cut off. -/
theorem readRecords_cut {m t : Bytes} (hl : (m ++ t).length ≤ 4096) : ∀ (new rs : List Record) (r : Reading), RecordsAt (m ++ t) r.pos new → Knows rs r.st →
    ∃ k new', Start k new new' ∧ Read rs new' r (readRecords m new.length r) ∧ ∀ k' ≤ new.length, RecordsAt m r.pos (new.take k') → k' ≤ k := by
  intro new
  induction new with
  | nil => intro rs r _ hk; exact ⟨0, [], .inl rfl, Read.nothing hk r.pos, fun k' h _ => h⟩
  | cons rec new ih =>
    intro rs r hat hk
    cases hat with
    | cons h1 h2 =>
      rcases readRecord_cut hl h1 hk with ⟨r', hr, hp, hread⟩ | ⟨r', new', hr, hread, hnew⟩
      · rw [← hp] at h2
        obtain ⟨k, new', hs, hread', hfull⟩ := ih (rs ++ [rec]) r' h2 hread.knows
        rw [List.length_cons, readRecords, hr]
        refine ⟨k + 1, rec :: new', ?_, hread.after hread', ?_⟩
        · rcases hs with rfl | ⟨name, strings, j, he, rfl⟩
          · exact .inl rfl
          · exact .inr ⟨name, strings, j, by simpa using he, rfl⟩
        · intro k' hk' hrec
          cases k' with
          | zero => omega
          | succ k' =>
            rw [List.take_succ_cons] at hrec
            cases hrec with
            | @cons _ stop2 _ _ g1 g2 =>
              obtain ⟨r2, hr2, hp2, -⟩ := readRecord_at (msg := m) (by simp at hl; omega) g1 hk
              rw [hr] at hr2
              cases hr2
              have := hfull k' (by simpa using hk') (by rw [hp2]; exact g2)
              omega
      · rw [List.length_cons, readRecords, hr]
        refine ⟨0, new', ?_, hread, ?_⟩
        · rcases hnew with rfl | ⟨strings, j, he, rfl⟩
          · exact .inl rfl
          · refine .inr ⟨rec.name, strings, j, ?_, rfl⟩
            rw [← he]; rfl
        · intro k' hk' hrec
          cases k' with
          | zero => omega
          | succ k' =>
            rw [List.take_succ_cons] at hrec
            cases hrec with
            | cons g1 g2 =>
              obtain ⟨r2, hr2, -, -⟩ := readRecord_at (msg := m) (by simp at hl; omega) g1 hk
              rw [hr] at hr2
              cases hr2

/-! ## The whole datagram -/

/-- Lines 277-285: the number of records and where they begin. -/
def countsOf (msg : Bytes) : Outcome (Nat × Nat) := do
  let q ← get16 msg 4
  let an ← get16 msg 6
  let au ← get16 msg 8
  let ad ← get16 msg 10
  let p ← skipQuestions msg q.1 12
  pure (an.1 + au.1 + ad.1, p)

theorem readResponse_parts (msg : Bytes) (s : St) : readResponse msg s =
    match countsOf msg with
    | .ok (total, p) => readRecords msg total { st := s, newIppPtrs := [], newIppsPtrs := [], newTargets := [], pos := p }
    | _ => { st := s, newIppPtrs := [], newIppsPtrs := [], newTargets := [], pos := 12 } := rfl

theorem countsOf_more {m : Bytes} {x : Nat × Nat} (t : Bytes) (h : countsOf m = .ok x) : countsOf (m ++ t) = .ok x := by
  unfold countsOf at h ⊢
  simp only [Outcome.bind_eq_ok] at h
  obtain ⟨a, ha, b, hb, c, hc, d, hd, e, he, h⟩ := h
  simp only [get16_more t ha, get16_more t hb, get16_more t hc, get16_more t hd, skipQuestions_more t he, Outcome.bind_ok]
  exact h

theorem begins_counts {m : Bytes} (hl : m.length ≤ 4096) {rs : List Record} (h : Begins m rs) :
    ∃ total start, countsOf m = .ok (total, start) ∧ RecordsAt m start rs ∧ rs.length ≤ total := by
  obtain ⟨id, flags, questions, answers, authorities, additional, start, b1, b2, b3, b4, hh, hq, hr, hlen⟩ := h
  have h1 := at_take hh
  have h2 := at_take h1.1
  have h3 := at_take h2.1
  have h4 := at_take h3.1
  have q : get16 m 4 = .ok (questions, 6) := by have := get16_at h4.2; rw [Nat.mod_eq_of_lt b1] at this; exact this
  have an : get16 m 6 = .ok (answers, 8) := by have := get16_at h3.2; rw [Nat.mod_eq_of_lt b2] at this; exact this
  have au : get16 m 8 = .ok (authorities, 10) := by have := get16_at h2.2; rw [Nat.mod_eq_of_lt b3] at this; exact this
  have ad : get16 m 10 = .ok (additional, 12) := by have := get16_at h1.2; rw [Nat.mod_eq_of_lt b4] at this; exact this
  refine ⟨answers + authorities + additional, start, ?_, hr, hlen⟩
  unfold countsOf
  simp only [q, an, au, ad, Outcome.bind_ok, skipQuestions_at hl hq, Outcome.pure_eq]

theorem response_counts {m : Bytes} (hl : m.length ≤ 4096) {rs : List Record} (h : Response m rs) :
    ∃ start, countsOf m = .ok (rs.length, start) ∧ RecordsAt m start rs := by
  obtain ⟨id, flags, questions, answers, authorities, additional, start, b1, b2, b3, b4, hh, hq, hr, hlen⟩ := h
  obtain ⟨total, st, hc, hr', hle⟩ := begins_counts hl ⟨id, flags, questions, answers, authorities, additional, start, b1, b2, b3, b4, hh, hq, hr, Nat.le_of_eq hlen⟩
  refine ⟨st, ?_, hr'⟩
  -- the number is what the header says
  have h1 := at_take hh
  have h2 := at_take h1.1
  have h3 := at_take h2.1
  have an : get16 m 6 = .ok (answers, 8) := by have := get16_at h3.2; rw [Nat.mod_eq_of_lt b2] at this; exact this
  have au : get16 m 8 = .ok (authorities, 10) := by have := get16_at h2.2; rw [Nat.mod_eq_of_lt b3] at this; exact this
  have ad : get16 m 10 = .ok (additional, 12) := by have := get16_at h1.2; rw [Nat.mod_eq_of_lt b4] at this; exact this
  have hc' := hc
  unfold countsOf at hc'
  simp only [an, au, ad, Outcome.bind_ok, Outcome.bind_eq_ok, Outcome.pure_eq, Outcome.ok.injEq, Prod.mk.injEq] at hc'
  obtain ⟨_, _, _, _, ht, _⟩ := hc'
  rw [hc, hlen, ht]

theorem readResponse_cut {m t : Bytes} (hl : (m ++ t).length ≤ 4096) {rs new : List Record} {s : St} (h : Response (m ++ t) new) (hk : Knows rs s) :
    ∃ k new', Start k new new' ∧ Read rs new' { st := s, newIppPtrs := [], newIppsPtrs := [], newTargets := [], pos := 12 } (readResponse m s) ∧
      ∀ k' ≤ new.length, Begins m (new.take k') → k' ≤ k := by
  have hlm : m.length ≤ 4096 := by simp at hl; omega
  obtain ⟨start, hc, hr⟩ := response_counts hl h
  rw [readResponse_parts]
  have none : (∀ x, countsOf m ≠ .ok x) → Start 0 new [] ∧
      Read rs [] { st := s, newIppPtrs := [], newIppsPtrs := [], newTargets := [], pos := 12 } { st := s, newIppPtrs := [], newIppsPtrs := [], newTargets := [], pos := 12 } ∧
      ∀ k' ≤ new.length, Begins m (new.take k') → k' ≤ 0 := by
    intro hn
    refine ⟨.inl rfl, Read.nothing (r := { st := s, newIppPtrs := [], newIppsPtrs := [], newTargets := [], pos := 12 }) hk 12, fun k' _ hb => ?_⟩
    obtain ⟨_, _, hcm, _⟩ := begins_counts hlm hb
    exact absurd hcm (hn _)
  cases hm : countsOf m with
  | throws e => exact ⟨0, [], none (by rw [hm]; nofun)⟩
  | ub => exact ⟨0, [], none (by rw [hm]; nofun)⟩
  | hang => exact ⟨0, [], none (by rw [hm]; nofun)⟩
  | ok x =>
    have e := countsOf_more t hm
    rw [hc] at e
    cases e
    obtain ⟨k, new', hs, hread, hfull⟩ := readRecords_cut hl new rs { st := s, newIppPtrs := [], newIppsPtrs := [], newTargets := [], pos := start } hr hk
    refine ⟨k, new', hs, ⟨hread.knows, hread.ipp, hread.ipps, hread.targets, hread.oldIpp, hread.oldIpps⟩, fun k' hk' hb => ?_⟩
    obtain ⟨_, st, hcm, hrec, _⟩ := begins_counts hlm hb
    rw [hm] at hcm
    cases hcm
    exact hfull k' hk' hrec

end Verif.Discovery
