import Verif.Discovery.Cut

/-! # Theorems about datagrams of any kind: what is known and reported after them -/

namespace Verif.Discovery

open Spec

/-! ## What is read stands in the datagram -/

theorem infix_drop {m x r : Bytes} {pos : Nat} (h : m.drop pos = x ++ r) : x <:+: m :=
  ⟨m.take pos, r, by rw [List.append_assoc, ← h, List.take_append_drop]⟩

theorem getLabel_inside {m l : Bytes} {pos p : Nat} (h : getLabel m pos = .ok (l, p)) : l <:+: m := by
  unfold getLabel at h
  simp only [Outcome.bind_eq_ok] at h
  obtain ⟨n, _, ⟨s, r⟩, hs, hx⟩ := h
  cases hx
  exact infix_drop (rdBytes_ok hs).1

theorem getAddr_inside {m : Bytes} {pos : Nat} {seen : List Nat} {o : Outcome (List Bytes × Nat)} (h : GetAddr m pos seen o) :
    ∀ x, o = .ok x → ∀ l ∈ x.1, l <:+: m := by
  induction h with
  | root h8 => intro x hx; cases hx; nofun
  | reference h8 hc h hs _ ih => intro x hx; cases hx; exact fun l hl => ih _ rfl l hl
  | label h8 hb hc h _ ih =>
    intro x hx; cases hx
    intro l hl
    rcases List.mem_cons.1 hl with rfl | hl
    · exact getLabel_inside h
    · exact ih _ rfl l hl
  | short => nofun
  | half => nofun
  | circular => nofun
  | referenceThrows => nofun
  | labelThrows => nofun
  | restThrows => nofun

theorem getAddrStr_inside {m n : Bytes} {pos p : Nat} (h : getAddrStr m pos = .ok (n, p)) : ∃ ls, n = dotted ls ∧ ∀ l ∈ ls, l <:+: m := by
  unfold getAddrStr at h
  simp only [Outcome.bind_eq_ok] at h
  obtain ⟨a, ha, hx⟩ := h
  cases hx
  exact ⟨a.1, dotted_eq _, getAddr_inside (getAddr_runs m pos) a ha⟩

theorem get16_inside {m : Bytes} {pos v p : Nat} (h : get16 m pos = .ok (v, p)) : v < 65536 ∧ be16 v <:+: m := by
  unfold get16 at h
  match hd : m.drop pos with
  | [] => rw [hd] at h; cases h
  | [a] => rw [hd] at h; cases h
  | a :: b :: r =>
    rw [hd] at h
    cases h
    have := a.toNat_lt; have := b.toNat_lt
    refine ⟨by simp only; omega, infix_drop (r := r) (pos := pos) ?_⟩
    rw [hd]
    unfold be16
    simp only [List.cons_append, List.nil_append, List.cons.injEq, and_true]
    refine ⟨?_, ?_⟩ <;> apply UInt8.toNat_inj.1 <;> rw [UInt8.toNat_ofNat'] <;> omega

theorem get32_inside {m : Bytes} {pos ip p : Nat} (h : get32 m pos = .ok (ip, p)) : ∃ a b c d, ip4str ip = quad a b c d ∧ [a, b, c, d] <:+: m := by
  unfold get32 at h
  match hd : m.drop pos with
  | [] => rw [hd] at h; cases h
  | [a] => rw [hd] at h; cases h
  | [a, b] => rw [hd] at h; cases h
  | [a, b, c] => rw [hd] at h; cases h
  | a :: b :: c :: d :: r =>
    rw [hd] at h
    cases h
    have hat : At m pos [a, b, c, d] := by
      refine ⟨m.take pos, r, ?_, ?_⟩
      · rw [List.append_assoc]; rw [show [a, b, c, d] ++ r = m.drop pos from hd.symm, List.take_append_drop]
      · have := congrArg List.length hd
        simp at this ⊢; omega
    obtain ⟨ip, h1, h2⟩ := get_ip hat
    unfold get32 at h1
    rw [hd] at h1
    cases h1
    exact ⟨a, b, c, d, h2, infix_drop (r := r) (pos := pos) hd⟩

/-! ## One record of any datagram -/

theorem readTxts_any {m : Bytes} {name : List Bytes} {rs : List Record} (stop : Nat) : ∀ (fuel : Nat) (done : List Bytes) (r : Reading),
    (∀ x ∈ done, x <:+: m) → Knows (rs ++ [⟨name, .txt done⟩]) r.st → ∃ b s p strings, readTxts m (dotted name) stop fuel r = (b, { r with st := s, pos := p }) ∧
      Knows (rs ++ [⟨name, .txt strings⟩]) s ∧ (∀ x ∈ strings, x <:+: m) ∧ s.ippPtrs = r.st.ippPtrs ∧ s.ippsPtrs = r.st.ippsPtrs := by
  intro fuel
  induction fuel with
  | zero => intro done r hd hk; exact ⟨_, _, _, done, by unfold readTxts; rfl, hk, hd, rfl, rfl⟩
  | succ fuel ih =>
    intro done r hd hk
    unfold readTxts
    by_cases hp : r.pos < stop
    · rw [if_pos hp]
      cases hg : getLabel m r.pos with
      | ok y =>
        obtain ⟨x, p⟩ := y
        simp only []
        obtain ⟨b, s, p', strings, hr, hk', hi, ho⟩ := ih (done ++ [x]) { r with st := _, pos := p } (fun y hy => by
          rcases List.mem_append.1 hy with hy | hy
          · exact hd y hy
          · rw [List.mem_singleton.1 hy]; exact getLabel_inside hg) (hk.text x)
        exact ⟨b, s, p', strings, hr, hk', hi, ho⟩
      | throws e => exact ⟨false, r.st, r.pos, done, rfl, hk, hd, rfl, rfl⟩
      | ub => exact ⟨false, r.st, r.pos, done, rfl, hk, hd, rfl, rfl⟩
      | hang => exact ⟨false, r.st, r.pos, done, rfl, hk, hd, rfl, rfl⟩
    · rw [if_neg hp]
      exact ⟨true, r.st, r.pos, done, rfl, hk, hd, rfl, rfl⟩

theorem headOf_inside {m n : Bytes} {pos type len p : Nat} (h : headOf m pos = .ok (n, type, len, p)) : ∃ ls, n = dotted ls ∧ ∀ l ∈ ls, l <:+: m := by
  unfold headOf at h
  simp only [Outcome.bind_eq_ok] at h
  obtain ⟨a, ha, _, _, _, _, _, _, _, _, h⟩ := h
  cases h
  exact getAddrStr_inside ha

theorem serviceOf_inside {m target : Bytes} {pos port p : Nat} (h : serviceOf m pos = .ok (port, target, p)) :
    port < 65536 ∧ be16 port <:+: m ∧ ∃ ls, target = dotted ls ∧ ∀ l ∈ ls, l <:+: m := by
  unfold serviceOf at h
  simp only [Outcome.bind_eq_ok] at h
  obtain ⟨_, _, _, _, c, hc, d, hd, h⟩ := h
  cases h
  exact ⟨(get16_inside hc).1, (get16_inside hc).2, getAddrStr_inside hd⟩

theorem readRecord_any (m : Bytes) {rs : List Record} {r : Reading} (hk : Knows rs r.st) :
    ∃ new, Read rs new r (readRecord m r).2 ∧ ∀ x ∈ new, Inside m x := by
  have same : ∀ p, ∃ new, Read rs new r { r with pos := p } ∧ ∀ x ∈ new, Inside m x := fun p => ⟨[], Read.nothing hk p, nofun⟩
  rw [readRecord_parts]
  cases hh : headOf m r.pos with
  | throws e => exact same r.pos
  | ub => exact same r.pos
  | hang => exact same r.pos
  | ok x =>
    obtain ⟨aaddr, type, len, p⟩ := x
    obtain ⟨name, rfl, hname⟩ := headOf_inside hh
    simp only []
    by_cases h12 : type = 12
    · rw [if_pos h12]
      cases hn : getAddrStr m p with
      | throws e => exact same r.pos
      | ub => exact same r.pos
      | hang => exact same r.pos
      | ok x =>
        obtain ⟨tn, p'⟩ := x
        obtain ⟨target, rfl, ht⟩ := getAddrStr_inside hn
        refine ⟨[⟨name, .ptr target⟩], ?_, by intro x hx; rw [List.mem_singleton.1 hx]; exact ⟨hname, ht⟩⟩
        simp only []
        rw [show ascii "_ipp._tcp.local" = ippService from rfl, show ascii "_ipps._tcp.local" = ippsService from rfl]
        have hk' : Knows (rs ++ [⟨name, .ptr target⟩]) r.st := hk.congr (by funext n; rw [services_append]; simp [services])
          (by funext n; rw [addresses_append]; simp [addresses]) (by funext n; rw [texts_append]; simp [texts])
        have hts : ∀ n port t, (port, t) ∉ services [⟨name, .ptr target⟩] n := by intro n port t h; simp [services] at h
        by_cases hi : ippService <:+ dotted name
        · rw [if_pos ((endsWith_iff _ _).2 hi)]
          refine ⟨hk', by simp [pointers, hi], by simp [pointers, services_apart hi], ?_, rfl, rfl⟩
          intro t; simp [hts]
        · rw [if_neg (fun h => hi ((endsWith_iff _ _).1 h))]
          by_cases hi' : ippsService <:+ dotted name
          · rw [if_pos ((endsWith_iff _ _).2 hi')]
            refine ⟨hk', by simp [pointers, hi], by simp [pointers, hi'], ?_, rfl, rfl⟩
            intro t; simp [hts]
          · rw [if_neg (fun h => hi' ((endsWith_iff _ _).1 h))]
            refine ⟨hk', by simp [pointers, hi], by simp [pointers, hi'], ?_, rfl, rfl⟩
            intro t; simp [hts]
    rw [if_neg h12]
    by_cases h16 : type = 16
    · rw [if_pos h16]
      obtain ⟨b, s, p', strings, hr, hk2, hin, ho1, ho2⟩ := readTxts_any (m := m) (p + len) m.length [] { r with pos := p } nofun (knows_text hk name)
      rw [hr]
      refine ⟨[⟨name, .txt strings⟩], ⟨hk2, by simp [pointers], by simp [pointers], ?_, ho1, ho2⟩, by intro x hx; rw [List.mem_singleton.1 hx]; exact ⟨hname, hin⟩⟩
      intro t; simp [services]
    rw [if_neg h16]
    by_cases h33 : type = 33
    · rw [if_pos h33]
      cases hn : serviceOf m p with
      | throws e => exact same r.pos
      | ub => exact same r.pos
      | hang => exact same r.pos
      | ok x =>
        obtain ⟨port, tn, p'⟩ := x
        obtain ⟨hport, hbe, target, rfl, ht⟩ := serviceOf_inside hn
        refine ⟨[⟨name, .srv 0 0 port target⟩], ?_, by intro x hx; rw [List.mem_singleton.1 hx]; exact ⟨hname, hport, hbe, ht⟩⟩
        have es : ∀ n, services (rs ++ [⟨name, .srv 0 0 port target⟩]) n =
            services rs n ++ if dotted name = n then [(port, dotted target)] else [] := by
          intro n; rw [services_append]; congr 1; unfold services; rw [List.filterMap_cons]; simp only [List.filterMap_nil]; split <;> simp_all
        refine ⟨⟨?_, ?_, ?_, ?_, ?_⟩, by simp [pointers], by simp [pointers], ?_, rfl, rfl⟩
        · intro n; rw [es]; simp only [KMap.get?_assign_any]
          by_cases hn : n = dotted name
          · subst hn; simp
          · rw [if_neg hn, if_neg (fun h => hn h.symm), List.append_nil]; exact hk.ports n
        · intro n; rw [es]; simp only [KMap.get?_assign_any]
          by_cases hn : n = dotted name
          · subst hn; simp
          · rw [if_neg hn, if_neg (fun h => hn h.symm), List.append_nil]; exact hk.targets n
        · intro n; rw [addresses_append]; simpa [addresses] using hk.as n
        · intro n k hkk; rw [values_append]; simpa [values, texts] using hk.txts n k hkk
        · intro n; rw [texts_append]; simpa [texts] using hk.has n
        · intro t
          have : (∃ n port', (port', t) ∈ services [⟨name, .srv 0 0 port target⟩] n) ↔ t = dotted target := by
            simp [services, eq_comm]
          rw [this]
          simp only []
          split
          · rename_i hm
            constructor
            · exact .inl
            · rintro (h | rfl)
              · exact h
              · exact hm
          · simp
    rw [if_neg h33]
    by_cases h1 : type = 1
    · rw [if_pos h1]
      cases hn : get32 m p with
      | throws e => exact same r.pos
      | ub => exact same r.pos
      | hang => exact same r.pos
      | ok x =>
        obtain ⟨ip, p'⟩ := x
        obtain ⟨a, b, c, d, hq, hin⟩ := get32_inside hn
        refine ⟨[⟨name, .a a b c d⟩], ?_, by intro x hx; rw [List.mem_singleton.1 hx]; exact ⟨hname, hin⟩⟩
        have es : ∀ n, addresses (rs ++ [⟨name, .a a b c d⟩]) n = addresses rs n ++ if dotted name = n then [quad a b c d] else [] := by
          intro n; rw [addresses_append]; congr 1; unfold addresses; rw [List.filterMap_cons]; simp only [List.filterMap_nil]; split <;> simp_all
        refine ⟨⟨?_, ?_, ?_, ?_, ?_⟩, by simp [pointers], by simp [pointers], ?_, rfl, rfl⟩
        · intro n; rw [services_append]; simpa [services] using hk.ports n
        · intro n; rw [services_append]; simpa [services] using hk.targets n
        · intro n; rw [es]; simp only [KMap.get?_assign_any]
          by_cases hn : n = dotted name
          · subst hn
            rw [if_pos rfl, if_pos rfl, hk.as, hq]
            by_cases ha : addresses rs (dotted name) = []
            · rw [if_pos ha, ha]; simp
            · rw [if_neg ha]; simp
          · rw [if_neg hn]; rw [if_neg (c := dotted name = n) (fun h => hn h.symm), List.append_nil]; exact hk.as n
        · intro n k hkk; rw [values_append]; simpa [values, texts] using hk.txts n k hkk
        · intro n; rw [texts_append]; simpa [texts] using hk.has n
        · intro t; simp [services]
    rw [if_neg h1]
    exact same (p + len)

theorem readRecords_any (m : Bytes) : ∀ (n : Nat) (rs : List Record) (r : Reading), Knows rs r.st →
    ∃ new, Read rs new r (readRecords m n r) ∧ ∀ x ∈ new, Inside m x := by
  intro n
  induction n with
  | zero => intro rs r hk; exact ⟨[], Read.nothing hk r.pos, nofun⟩
  | succ n ih =>
    intro rs r hk
    obtain ⟨new, hread, hin⟩ := readRecord_any m hk
    unfold readRecords
    match hr : readRecord m r with
    | (false, r') => rw [hr] at hread; exact ⟨new, hread, hin⟩
    | (true, r') =>
      rw [hr] at hread
      obtain ⟨new', hread', hin'⟩ := ih (rs ++ new) r' hread.knows
      exact ⟨new ++ new', hread.after hread', fun x hx => (List.mem_append.1 hx).elim (hin x) (hin' x)⟩

theorem readResponse_any (m : Bytes) {rs : List Record} {s : St} (hk : Knows rs s) :
    ∃ new, Read rs new { st := s, newIppPtrs := [], newIppsPtrs := [], newTargets := [], pos := 12 } (readResponse m s) ∧ ∀ x ∈ new, Inside m x := by
  have none : ∃ new, Read rs new { st := s, newIppPtrs := [], newIppsPtrs := [], newTargets := [], pos := 12 }
      { st := s, newIppPtrs := [], newIppsPtrs := [], newTargets := [], pos := 12 } ∧ ∀ x ∈ new, Inside m x :=
    ⟨[], Read.nothing (r := { st := s, newIppPtrs := [], newIppsPtrs := [], newTargets := [], pos := 12 }) hk 12, nofun⟩
  rw [readResponse_parts]
  cases hm : countsOf m with
  | throws e => exact none
  | ub => exact none
  | hang => exact none
  | ok x =>
    obtain ⟨new, hread, hin⟩ := readRecords_any m x.1 rs { st := s, newIppPtrs := [], newIppsPtrs := [], newTargets := [], pos := x.2 } hk
    exact ⟨new, ⟨hread.knows, hread.ipp, hread.ipps, hread.targets, hread.oldIpp, hread.oldIpps⟩, hin⟩

/-- Reading any datagram gives what it tells. -/
theorem readResponse_tells (m : Bytes) {rs : List Record} {s : St} (hk : Knows rs s) :
    ∃ new, Tells m new ∧ Read rs new { st := s, newIppPtrs := [], newIppsPtrs := [], newTargets := [], pos := 12 } (readResponse m s) := by
  by_cases hw : ∃ new, Response m new ∧ m.length ≤ 4096
  · obtain ⟨new, hr, hl⟩ := hw
    exact ⟨new, .whole hr hl, readResponse_at hl hr hk⟩
  · by_cases hc : ∃ msg new, Response msg new ∧ msg.length ≤ 4096 ∧ m <+: msg
    · obtain ⟨msg, new, hr, hl, t, rfl⟩ := hc
      obtain ⟨k, new', hs, hread, hfull⟩ := readResponse_cut hl hr hk
      exact ⟨new', .cut hr hl ⟨t, rfl⟩ hs hfull, hread⟩
    · obtain ⟨new, hread, hin⟩ := readResponse_any m hk
      exact ⟨new, .other (fun msg rs hr hl hp => hc ⟨msg, rs, hr, hl, hp⟩) hin, hread⟩

/-- **C119.** Whatever datagrams arrive, whole responses, beginnings of responses and anything else in between: there are records that they tell, those of each
response, of the beginning of one the records that are in it as a whole and at most some strings of the next, and of anything else only what stands in it.
Exactly the printers are reported that these records tell of, and what they leave open is asked for. -/
theorem C119_any {clock : Nat → Nat} {ask : Nat → List Bytes → St → Outcome St} (ha : Asking clock ask) {msgs : List Bytes} {s : St}
    (h : discover ask msgs = .ok s) : ∃ rss, TellAll msgs rss ∧
      (∀ it port ip path, Printer rss.flatten ippsService it port ip path → ippsUri port ip path ∈ s.reported) ∧
      (∀ it port ip path, Printer rss.flatten ippService it port ip path →
        ippUri port ip path ∈ s.reported ∨ ∃ port', ippsUri port' ip path ∈ s.reported) ∧
      (∀ a ∈ s.reported, ∃ j it port ip path, (Printer (rss.take j).flatten ippsService it port ip path ∧ a = ippsUri port ip path) ∨
        (Printer (rss.take j).flatten ippService it port ip path ∧ a = ippUri port ip path)) ∧
      (∀ p, p ∈ pointers ippService rss.flatten ∨ p ∈ pointers ippsService rss.flatten →
        (texts rss.flatten p = [] → ∃ Q ∈ s.sent, Q.qtype = 16 ∧ p ∈ Q.names) ∧
        (services rss.flatten p = [] → ∃ Q ∈ s.sent, Q.qtype = 33 ∧ p ∈ Q.names)) ∧
      (∀ n port t, (port, t) ∈ services rss.flatten n → addresses rss.flatten t = [] → ∃ Q ∈ s.sent, Q.qtype = 1 ∧ t ∈ Q.names) := by
  obtain ⟨rss, hG, hI⟩ := discover_inv_of ha.meant (G := TellAll) .nil (fun m ms rs s hk => by
    obtain ⟨new, ht, hread⟩ := readResponse_tells m hk
    exact ⟨new, fun rss hG => .cons ht hG, hread⟩) h
  refine ⟨rss, hG, hI.secure, hI.plain, hI.sound, fun p hp => ?_, fun n port t ht hn => (hI.located n port t ht).resolve_left (fun h => h hn)⟩
  have := hI.described p hp
  exact ⟨fun hn => this.1.resolve_left (fun h => h hn), fun hn => this.2.resolve_left (fun h => h hn)⟩

/-- Records that stand in the datagrams. -/
inductive AllInside : List Bytes → List (List Record) → Prop
  | nil : AllInside [] []
  | cons {m : Bytes} {ms : List Bytes} {rs : List Record} {rss : List (List Record)} : (∀ r ∈ rs, Inside m r) → AllInside ms rss →
      AllInside (m :: ms) (rs :: rss)

theorem AllInside.mem {ms : List Bytes} {rss : List (List Record)} (h : AllInside ms rss) : ∀ r ∈ rss.flatten, ∃ m ∈ ms, Inside m r := by
  induction h with
  | nil => nofun
  | cons h1 _ ih =>
    intro r hr
    rw [List.flatten_cons, List.mem_append] at hr
    rcases hr with hr | hr
    · exact ⟨_, List.mem_cons_self, h1 r hr⟩
    · obtain ⟨m, hm, hi⟩ := ih r hr
      exact ⟨m, List.mem_cons_of_mem _ hm, hi⟩

theorem take_flatten_mem {α : Type} {l : List (List α)} {j : Nat} {x : α} (h : x ∈ (l.take j).flatten) : x ∈ l.flatten := by
  obtain ⟨y, hy, hx⟩ := List.mem_flatten.1 h
  exact List.mem_flatten.2 ⟨y, List.mem_of_mem_take hy, hx⟩

/-- **C119.** Whatever datagrams arrive, of any length: nothing is made up. Every address that is reported has a port, an IPv4 address and a path that stand in
them, the port and the address in network byte order and the path behind `rp=` (or it is `rp` itself). -/
theorem C119_stands {clock : Nat → Nat} {ask : Nat → List Bytes → St → Outcome St} (ha : Asking clock ask) {msgs : List Bytes} {s : St}
    (h : discover ask msgs = .ok s) {x : Bytes} (hx : x ∈ s.reported) :
    ∃ port a b c d path, (x = ippsUri port (quad a b c d) path ∨ x = ippUri port (quad a b c d) path) ∧ port < 65536 ∧
      (∃ m ∈ msgs, be16 port <:+: m) ∧ (∃ m ∈ msgs, [a, b, c, d] <:+: m) ∧
      ∃ m ∈ msgs, ascii "rp=" ++ path <:+: m ∨ path = ascii "rp" ∧ path <:+: m := by
  obtain ⟨rss, hG, hI⟩ := discover_inv_of ha.meant (G := AllInside) .nil (fun m ms rs s hk => by
    obtain ⟨new, hread, hin⟩ := readResponse_any m hk
    exact ⟨new, fun rss hG => .cons hin hG, hread⟩) h
  obtain ⟨j, it, port, ip, path, hp⟩ := hI.sound x hx
  have key : ∀ service, Printer (rss.take j).flatten service it port ip path → ∃ a b c d, ip = quad a b c d ∧ port < 65536 ∧
      (∃ m ∈ msgs, be16 port <:+: m) ∧ (∃ m ∈ msgs, [a, b, c, d] <:+: m) ∧
      ∃ m ∈ msgs, ascii "rp=" ++ path <:+: m ∨ path = ascii "rp" ∧ path <:+: m := by
    rintro service ⟨-, target, h1, h2, h3⟩
    have h1 := List.mem_of_getLast? h1
    have h3 := List.mem_of_getLast? h3
    unfold services at h1
    unfold addresses at h2
    unfold values texts at h3
    obtain ⟨r1, hr1, e1⟩ := List.mem_filterMap.1 h1
    obtain ⟨r2, hr2, e2⟩ := List.mem_filterMap.1 h2
    obtain ⟨t, ht, e3⟩ := List.mem_filterMap.1 h3
    obtain ⟨r3, hr3, ht⟩ := List.mem_flatMap.1 ht
    obtain ⟨m1, hm1, i1⟩ := hG.mem r1 (take_flatten_mem hr1)
    obtain ⟨m2, hm2, i2⟩ := hG.mem r2 (take_flatten_mem hr2)
    obtain ⟨m3, hm3, i3⟩ := hG.mem r3 (take_flatten_mem hr3)
    obtain ⟨n1, d1⟩ := r1
    obtain ⟨n2, d2⟩ := r2
    obtain ⟨n3, d3⟩ := r3
    cases d1 with
    | srv pr we po ta =>
      simp only at e1
      by_cases hn1 : dotted n1 = it
      · rw [if_pos hn1] at e1
        cases e1
        cases d2 with
        | a a b c d =>
          simp only at e2
          by_cases hn2 : dotted n2 = dotted ta
          · rw [if_pos hn2] at e2
            cases e2
            cases d3 with
            | txt l =>
              simp only at ht
              by_cases hn3 : dotted n3 = it
              · rw [if_pos hn3] at ht
                have i3 : t <:+: m3 := i3.2 t ht
                refine ⟨a, b, c, d, rfl, i1.2.1, ⟨m1, hm1, i1.2.2.1⟩, ⟨m2, hm2, i2.2⟩, m3, hm3, ?_⟩
                unfold valueIn at e3
                by_cases hs : t = ascii "rp"
                · rw [if_pos hs] at e3
                  cases e3
                  exact .inr ⟨hs, i3⟩
                · rw [if_neg hs] at e3
                  by_cases hpre : ascii "rp" ++ [61] <+: t
                  · rw [if_pos hpre] at e3
                    cases e3
                    obtain ⟨v, rfl⟩ := hpre
                    left
                    have : (ascii "rp" ++ [61] ++ v).drop ((ascii "rp").length + 1) = v := rfl
                    rw [this]
                    exact i3
                  · rw [if_neg hpre] at e3; cases e3
              · rw [if_neg hn3] at ht; cases ht
            | ptr => cases ht
            | srv => cases ht
            | a => cases ht
            | other => cases ht
          · rw [if_neg hn2] at e2; cases e2
        | ptr => cases e2
        | srv => cases e2
        | txt => cases e2
        | other => cases e2
      · rw [if_neg hn1] at e1; cases e1
    | ptr => cases e1
    | a => cases e1
    | txt => cases e1
    | other => cases e1
  rcases hp with ⟨hp, rfl⟩ | ⟨hp, rfl⟩
  · obtain ⟨a, b, c, d, rfl, hrest⟩ := key _ hp
    exact ⟨port, a, b, c, d, path, .inl rfl, hrest⟩
  · obtain ⟨a, b, c, d, rfl, hrest⟩ := key _ hp
    exact ⟨port, a, b, c, d, path, .inr rfl, hrest⟩

/-! ## Examples -/

/-- The first 40 bytes tell nothing: the target of the pointer is missing. The first 44 bytes tell the first record. -/
theorem example_begins : Begins (exampleResponse.take 44) (exampleRecords.take 1) := by
  have service : NameAt (exampleResponse.take 44) 12 [ascii "_ipps", ascii "_tcp", ascii "local"] 30 :=
    .label (l := ascii "_ipps") (by decide +kernel) (by decide +kernel) (at_of (by decide +kernel) (by decide +kernel))
      (.label (l := ascii "_tcp") (by decide +kernel) (by decide +kernel) (at_of (by decide +kernel) (by decide +kernel))
        (.label (l := ascii "local") (by decide +kernel) (by decide +kernel) (at_of (by decide +kernel) (by decide +kernel))
          (.root (at_of (by decide +kernel) (by decide +kernel)))))
  have printer : NameAt (exampleResponse.take 44) 40 [ascii "P", ascii "_ipps", ascii "_tcp", ascii "local"] 44 :=
    .label (l := ascii "P") (by decide +kernel) (by decide +kernel) (at_of (by decide +kernel) (by decide +kernel))
      (.reference (ref := 12) (by decide) (by decide +kernel) (at_of (by decide +kernel) (by decide +kernel)) service)
  exact ⟨0, 0x8400, 0, 1, 0, 3, 12, by decide, by decide, by decide, by decide, at_of (by decide +kernel) (by decide +kernel), .zero,
    .cons (stop := 44) ⟨30, 12, 4, service, ⟨by decide, 1, 120, at_of (by decide +kernel) (by decide +kernel)⟩, .ptr printer, rfl⟩ .nil, by decide⟩

/-- A datagram that is not the beginning of any response: the first byte of the only question is 128. -/
theorem example_other (msg : Bytes) (rs : List Record) (h : Response msg rs) : ¬ [0, 0, 0, 0, 0, 1, 0, 0, 0, 0, 0, 0, 128, 0] <+: msg := by
  rintro ⟨t, rfl⟩
  obtain ⟨id, flags, questions, answers, authorities, additional, start, b1, b2, b3, b4, hh, hq, hr, hlen⟩ := h
  have h1 := at_take hh
  have h2 := at_take h1.1
  have h3 := at_take h2.1
  have h4 := at_take h3.1
  have q := get16_at h4.2
  rw [Nat.mod_eq_of_lt b1] at q
  have e : questions = 1 := by
    have : get16 ([0, 0, 0, 0, 0, 1, 0, 0, 0, 0, 0, 0, 128, 0] ++ t) (0 + (be16 id ++ be16 flags).length) = .ok (1, 6) := rfl
    rw [this] at q
    cases q; rfl
  subst e
  have no : ∀ ls stop, ¬ NameAt ([0, 0, 0, 0, 0, 1, 0, 0, 0, 0, 0, 0, 128, 0] ++ t) 12 ls stop := by
    intro ls stop hn
    cases hn with
    | root h =>
      obtain ⟨b, hb⟩ := at_drop h
      cases hb
    | @label _ _ l _ l1 l2 h _ =>
      obtain ⟨b, hb⟩ := at_drop h
      have hb : (128 : UInt8) = UInt8.ofNat l.length := by
        have := congrArg List.head? hb
        exact Option.some.inj this
      have := congrArg UInt8.toNat hb
      rw [UInt8.toNat_ofNat'] at this
      simp at this
      omega
    | @reference _ ref _ _ r1 r2 h _ =>
      obtain ⟨b, hb⟩ := at_drop h
      have hb : (128 : UInt8) = UInt8.ofNat ((49152 + ref) / 256) := by
        have := congrArg List.head? hb
        exact Option.some.inj this
      have := congrArg UInt8.toNat hb
      rw [UInt8.toNat_ofNat'] at this
      simp at this
      omega
  cases hq with
  | succ h _ _ => exact no _ _ h

/-- What such datagrams tell, and what is reported after them: a beginning with a pointer, garbage, the beginning of the same response with all but the
address, and the whole. -/
example : Tells exampleResponse exampleRecords ∧ (∃ k, Begins (exampleResponse.take 44) (exampleRecords.take k) ∧ k = 1) ∧
    reportsOf [exampleResponse.take 44, [0, 0, 0, 0, 0, 1, 0, 0, 0, 0, 0, 0, 128, 0], exampleResponse.take 116] = [] ∧
    reportsOf [exampleResponse.take 44, [0, 0, 0, 0, 0, 1, 0, 0, 0, 0, 0, 0, 128, 0], exampleResponse.take 116, exampleResponse] =
      [ascii "ipps://10.0.0.9:8443/ipp/print"] :=
  ⟨.whole example_response (by decide +kernel), ⟨1, example_begins, rfl⟩, by decide +kernel, by decide +kernel⟩

/-- A discovery that gets them comes to an end. -/
example : ∃ s, discover (sendQuery (fun _ => 0)) [exampleResponse.take 44, [0, 0, 0, 0, 0, 1, 0, 0, 0, 0, 0, 0, 128, 0], exampleResponse] = .ok s ∧
    s.reported = [ascii "ipps://10.0.0.9:8443/ipp/print"] := by
  have h : reportsOf [exampleResponse.take 44, [0, 0, 0, 0, 0, 1, 0, 0, 0, 0, 0, 0, 128, 0], exampleResponse] = [ascii "ipps://10.0.0.9:8443/ipp/print"] := by
    decide +kernel
  unfold reportsOf at h
  split at h
  · rename_i s hs; exact ⟨s, hs, h⟩
  · cases h

end Verif.Discovery
