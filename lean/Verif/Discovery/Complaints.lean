import Verif.Discovery.Garbage

/-!
# What is written to the standard error during the discovery (C120)

The text of an exception (`what()`) is a parameter. That of `out_of_range` comes from a library that is not in the repository; that of `logic_error` is "Circular reference"
(ippdiscovery.cpp 77), because the other one (line 350) can not be thrown.
-/

namespace Verif.Discovery

open Verif.Discovery.Spec

/-! ## Model -/

/-- Lines 313-315: where the strings of a TXT record end. -/
def textsEnd (msg : Bytes) (stop : Nat) : Nat → Nat → Outcome Nat
  | 0, pos => if pos ≥ stop then .ok pos else .throws .outOfRange
  | fuel + 1, pos =>
    if pos < stop then do
      let l ← getLabel msg pos
      textsEnd msg stop fuel l.2
    else .ok pos

/-- Lines 292-352: where a record ends, or the exception that reading it ends with. -/
def recordEnd (msg : Bytes) (pos : Nat) : Outcome Nat := do
  let h ← headOf msg pos
  if h.2.1 = 12 then do
    let n ← getAddrStr msg h.2.2.2
    pure n.2
  else if h.2.1 = 16 then textsEnd msg (h.2.2.2 + h.2.2.1) msg.length h.2.2.2
  else if h.2.1 = 33 then do
    let b ← serviceOf msg h.2.2.2
    pure b.2.2
  else if h.2.1 = 1 then do
    let a ← get32 msg h.2.2.2
    pure a.2
  else pure (h.2.2.2 + h.2.2.1)

/-- Lines 287-353 -/
def recordsEnd (msg : Bytes) : Nat → Nat → Outcome Nat
  | 0, pos => .ok pos
  | n + 1, pos => do
    let p ← recordEnd msg pos
    recordsEnd msg n p

/-- Lines 275-354 -/
def datagramEnd (msg : Bytes) : Outcome Nat := do
  let c ← countsOf msg
  recordsEnd msg c.1 c.2

/-- Lines 355-358: what is written for a datagram; `what` gives the text of an exception. -/
def complaintOf (what : Exn → Bytes) (msg : Bytes) : Bytes :=
  match datagramEnd msg with
  | .throws e => what e
  | _ => []

/-- What ippdiscover without options has written to the standard error at the end; with `-v` it writes more, which is not modelled. -/
def discoverErr (what : Exn → Bytes) (msgs : List Bytes) : Bytes := msgs.flatMap (complaintOf what)

/-! ## Specification -/

namespace Spec

/-- Records from `pos` to `stop`. -/
inductive RecordsTo (msg : Bytes) : Nat → List Record → Nat → Prop
  | nil {pos : Nat} : RecordsTo msg pos [] pos
  | cons {pos p stop : Nat} {r : Record} {rs : List Record} : RecordAt msg pos r p → RecordsTo msg p rs stop → RecordsTo msg pos (r :: rs) stop

/-- A response with these records, the last of which ends at `stop`. -/
def ResponseTo (msg : Bytes) (rs : List Record) (stop : Nat) : Prop :=
  ∃ id flags questions answers authorities additional start,
    questions < 65536 ∧ answers < 65536 ∧ authorities < 65536 ∧ additional < 65536 ∧
    At msg 0 (be16 id ++ be16 flags ++ be16 questions ++ be16 answers ++ be16 authorities ++ be16 additional) ∧
    QuestionsAt msg questions 12 start ∧ RecordsTo msg start rs stop ∧ rs.length = answers + authorities + additional

/-- A response that is cut off before the end of its last record, which is of a type that is read. -/
def CutOff (m : Bytes) : Prop :=
  ∃ t rs last stop, ResponseTo (m ++ t) (rs ++ [last]) stop ∧ (m ++ t).length ≤ 4096 ∧ (∀ type data, last.data ≠ .other type data) ∧ m.length < stop

/-- The name in the first question refers to itself. -/
def Loops (m : Bytes) : Prop :=
  ∃ id flags questions answers authorities additional, 0 < questions ∧ questions < 65536 ∧
    At m 0 (be16 id ++ be16 flags ++ be16 questions ++ be16 answers ++ be16 authorities ++ be16 additional) ∧ At m 12 (be16 (49152 + 12))

/-- What is to be written for datagrams of these three kinds: `short` for each that is cut off, `loop` for each that refers to itself, in their order. -/
inductive ToSay (short loop : Bytes) : List Bytes → Bytes → Prop
  | nil : ToSay short loop [] []
  | whole {m : Bytes} {ms : List Bytes} {rs : List Record} {s : Bytes} : Response m rs → m.length ≤ 4096 → ToSay short loop ms s → ToSay short loop (m :: ms) s
  | cut {m : Bytes} {ms : List Bytes} {s : Bytes} : CutOff m → ToSay short loop ms s → ToSay short loop (m :: ms) (short ++ s)
  | loops {m : Bytes} {ms : List Bytes} {s : Bytes} : Loops m → ToSay short loop ms s → ToSay short loop (m :: ms) (loop ++ s)

end Spec

/-! ## Proofs -/

theorem get32_total (msg : Bytes) (pos : Nat) : (∃ v, get32 msg pos = .ok (v, pos + 4)) ∨ get32 msg pos = .throws .outOfRange := by
  unfold get32
  match msg.drop pos with
  | [] => exact .inr rfl
  | [a] => exact .inr rfl
  | [a, b] => exact .inr rfl
  | [a, b, c] => exact .inr rfl
  | a :: b :: c :: d :: r => exact .inl ⟨_, rfl⟩

/-- A value or one of two exceptions. -/
def Settled {α : Type} (o : Outcome α) : Prop := (∃ x, o = .ok x) ∨ o = .throws .outOfRange ∨ o = .throws .logicError

theorem Settled.bind {α β : Type} {o : Outcome α} {f : α → Outcome β} (h : Settled o) (hf : ∀ x, Settled (f x)) : Settled (o >>= f) := by
  rcases h with ⟨x, rfl⟩ | rfl | rfl
  · exact hf x
  · exact .inr (.inl rfl)
  · exact .inr (.inr rfl)

theorem Settled.pure {α : Type} (x : α) : Settled (pure x : Outcome α) := .inl ⟨x, rfl⟩

theorem settled16 (msg : Bytes) (pos : Nat) : Settled (get16 msg pos) := by
  rcases get16_total msg pos with ⟨v, h⟩ | h
  · exact .inl ⟨_, h⟩
  · exact .inr (.inl h)

theorem settled32 (msg : Bytes) (pos : Nat) : Settled (get32 msg pos) := by
  rcases get32_total msg pos with ⟨v, h⟩ | h
  · exact .inl ⟨_, h⟩
  · exact .inr (.inl h)

theorem settledLabel (msg : Bytes) (pos : Nat) : Settled (getLabel msg pos) := by
  rcases getLabel_total msg pos with ⟨l, p, h⟩ | h
  · exact .inl ⟨_, h⟩
  · exact .inr (.inl h)

theorem settledName (msg : Bytes) (pos : Nat) : Settled (getAddrStr msg pos) := by
  unfold getAddrStr
  refine Settled.bind ?_ (fun a => Settled.pure _)
  obtain ⟨o, ho, _, h⟩ := C41_ends msg pos
  rw [getAddr_eq ho]
  rcases h with ⟨l, p, h⟩ | h | h
  · exact .inl ⟨_, h⟩
  · exact .inr (.inl h)
  · exact .inr (.inr h)

theorem settledHead (msg : Bytes) (pos : Nat) : Settled (headOf msg pos) :=
  (settledName msg pos).bind fun _ => (settled16 _ _).bind fun _ => (settled16 _ _).bind fun _ => (settled32 _ _).bind fun _ => (settled16 _ _).bind fun _ => .pure _

theorem settledService (msg : Bytes) (pos : Nat) : Settled (serviceOf msg pos) :=
  (settled16 msg pos).bind fun _ => (settled16 _ _).bind fun _ => (settled16 _ _).bind fun _ => (settledName _ _).bind fun _ => .pure _

theorem settledTexts (msg : Bytes) (stop : Nat) : ∀ (fuel pos : Nat), Settled (textsEnd msg stop fuel pos) := by
  intro fuel
  induction fuel with
  | zero =>
    intro pos
    unfold textsEnd
    by_cases h : pos ≥ stop
    · rw [if_pos h]; exact .inl ⟨_, rfl⟩
    · rw [if_neg h]; exact .inr (.inl rfl)
  | succ fuel ih =>
    intro pos
    unfold textsEnd
    by_cases h : pos < stop
    · rw [if_pos h]; exact (settledLabel msg pos).bind fun l => ih l.2
    · rw [if_neg h]; exact .inl ⟨_, rfl⟩

theorem settledRecord (msg : Bytes) (pos : Nat) : Settled (recordEnd msg pos) := by
  unfold recordEnd
  refine (settledHead msg pos).bind fun h => ?_
  by_cases h1 : h.2.1 = 12
  · rw [if_pos h1]; exact (settledName _ _).bind fun _ => .pure _
  rw [if_neg h1]
  by_cases h2 : h.2.1 = 16
  · rw [if_pos h2]; exact settledTexts _ _ _ _
  rw [if_neg h2]
  by_cases h3 : h.2.1 = 33
  · rw [if_pos h3]; exact (settledService _ _).bind fun _ => .pure _
  rw [if_neg h3]
  by_cases h4 : h.2.1 = 1
  · rw [if_pos h4]; exact (settled32 _ _).bind fun _ => .pure _
  rw [if_neg h4]
  exact .pure _

theorem settledRecords (msg : Bytes) : ∀ (n pos : Nat), Settled (recordsEnd msg n pos) := by
  intro n
  induction n with
  | zero => intro pos; exact .inl ⟨_, rfl⟩
  | succ n ih => intro pos; exact (settledRecord msg pos).bind fun p => ih p

theorem settledQuestions (msg : Bytes) : ∀ (n pos : Nat), Settled (skipQuestions msg n pos) := by
  intro n
  induction n with
  | zero => intro pos; exact .inl ⟨_, rfl⟩
  | succ n ih => intro pos; exact (settledName msg pos).bind fun _ => (settled16 _ _).bind fun _ => (settled16 _ _).bind fun _ => ih _

theorem settledCounts (msg : Bytes) : Settled (countsOf msg) :=
  (settled16 msg 4).bind fun _ => (settled16 _ _).bind fun _ => (settled16 _ _).bind fun _ => (settled16 _ _).bind fun _ => (settledQuestions _ _ _).bind fun _ => .pure _

theorem settledDatagram (msg : Bytes) : Settled (datagramEnd msg) := (settledCounts msg).bind fun _ => settledRecords _ _ _

/-- The strings of a TXT record: the reading goes on exactly when an end is found, and there. -/
theorem readTxts_end (msg aaddr : Bytes) (stop : Nat) : ∀ (fuel : Nat) (r : Reading),
    (∃ r', readTxts msg aaddr stop fuel r = (true, r') ∧ textsEnd msg stop fuel r.pos = .ok r'.pos) ∨
    ((readTxts msg aaddr stop fuel r).1 = false ∧ ∃ e, textsEnd msg stop fuel r.pos = .throws e) := by
  intro fuel
  induction fuel with
  | zero =>
    intro r
    unfold readTxts textsEnd
    by_cases h : r.pos ≥ stop
    · rw [if_pos h]; exact .inl ⟨r, by simp [h], rfl⟩
    · rw [if_neg h]; exact .inr ⟨by simp; omega, _, rfl⟩
  | succ fuel ih =>
    intro r
    unfold readTxts textsEnd
    by_cases h : r.pos < stop
    · rw [if_pos h, if_pos h]
      rcases getLabel_total msg r.pos with ⟨l, p, hl⟩ | hl
      · simp only [hl, Outcome.bind_ok]
        exact ih _
      · simp only [hl]
        exact .inr ⟨trivial, _, rfl⟩
    · rw [if_neg h, if_neg h]; exact .inl ⟨r, rfl, rfl⟩

/-- A record: the reading goes on exactly when an end is found, and there. -/
theorem readRecord_end (msg : Bytes) (r : Reading) :
    (∃ r', readRecord msg r = (true, r') ∧ recordEnd msg r.pos = .ok r'.pos) ∨
    ((readRecord msg r).1 = false ∧ ∃ e, recordEnd msg r.pos = .throws e) := by
  rw [readRecord_parts]
  unfold recordEnd
  rcases settledHead msg r.pos with ⟨⟨aaddr, type, len, pos⟩, hh⟩ | hh | hh
  rotate_left
  · rw [hh]; exact .inr ⟨rfl, _, rfl⟩
  · rw [hh]; exact .inr ⟨rfl, _, rfl⟩
  simp only [hh, Outcome.bind_ok]
  by_cases h1 : type = 12
  · rw [if_pos h1, if_pos h1]
    rcases settledName msg pos with ⟨⟨n, p⟩, hn⟩ | hn | hn
    rotate_left
    · rw [hn]; exact .inr ⟨rfl, _, rfl⟩
    · rw [hn]; exact .inr ⟨rfl, _, rfl⟩
    simp only [hn, Outcome.bind_ok, Outcome.pure_eq]
    left
    split
    · exact ⟨_, rfl, rfl⟩
    · split
      · exact ⟨_, rfl, rfl⟩
      · exact ⟨_, rfl, rfl⟩
  rw [if_neg h1, if_neg h1]
  by_cases h2 : type = 16
  · rw [if_pos h2, if_pos h2]
    exact readTxts_end msg aaddr (pos + len) msg.length { r with pos := pos }
  rw [if_neg h2, if_neg h2]
  by_cases h3 : type = 33
  · rw [if_pos h3, if_pos h3]
    rcases settledService msg pos with ⟨⟨a, b, p⟩, hn⟩ | hn | hn
    rotate_left
    · rw [hn]; exact .inr ⟨rfl, _, rfl⟩
    · rw [hn]; exact .inr ⟨rfl, _, rfl⟩
    simp only [hn, Outcome.bind_ok, Outcome.pure_eq]
    exact .inl ⟨_, rfl, rfl⟩
  rw [if_neg h3, if_neg h3]
  by_cases h4 : type = 1
  · rw [if_pos h4, if_pos h4]
    rcases settled32 msg pos with ⟨⟨a, p⟩, hn⟩ | hn | hn
    rotate_left
    · rw [hn]; exact .inr ⟨rfl, _, rfl⟩
    · rw [hn]; exact .inr ⟨rfl, _, rfl⟩
    simp only [hn, Outcome.bind_ok, Outcome.pure_eq]
    exact .inl ⟨_, rfl, rfl⟩
  rw [if_neg h4, if_neg h4]
  exact .inl ⟨_, rfl, rfl⟩

/-- The reading of a record at a place, for the place alone. -/
def readingAt (pos : Nat) : Reading := { st := start, newIppPtrs := [], newIppsPtrs := [], newTargets := [], pos := pos }

theorem recordEnd_more {m : Bytes} (t : Bytes) {pos p : Nat} (h : recordEnd m pos = .ok p) : recordEnd (m ++ t) pos = .ok p := by
  rcases readRecord_end m (readingAt pos) with ⟨r', hr, he⟩ | ⟨_, e, he⟩
  · have hm := readRecord_more t hr
    rcases readRecord_end (m ++ t) (readingAt pos) with ⟨r'', hr', he'⟩ | ⟨hf, _⟩
    · rw [hm] at hr'; cases hr'
      have he : recordEnd m pos = .ok r'.pos := he
      rw [h] at he
      exact he'.trans he.symm
    · rw [hm] at hf; cases hf
  · have he : recordEnd m pos = .throws e := he
    rw [h] at he; cases he

theorem knows_start : Knows [] start :=
  ⟨fun _ => rfl, fun _ => rfl, fun _ => rfl, fun _ _ _ => rfl, fun _ => by simp [start, KMap.get?, texts]⟩

theorem recordEnd_at {m : Bytes} (hl : m.length ≤ 4096) {pos stop : Nat} {rec : Record} (h : RecordAt m pos rec stop) : recordEnd m pos = .ok stop := by
  obtain ⟨r', hr, hp, _⟩ := readRecord_at hl (r := readingAt pos) h knows_start
  rcases readRecord_end m (readingAt pos) with ⟨r'', hr', he'⟩ | ⟨hf, _⟩
  · rw [hr] at hr'; cases hr'
    rw [← hp]; exact he'
  · rw [hr] at hf; cases hf

theorem getAddr_within {m : Bytes} {pos : Nat} {seen : List Nat} {o : Outcome (List Bytes × Nat)} (h : GetAddr m pos seen o) :
    ∀ x, o = .ok x → x.2 ≤ m.length := by
  induction h with
  | root h8 =>
    intro x hx; cases hx
    obtain ⟨b, hb, _⟩ := rd8_cons h8
    have := congrArg List.length hb
    simp at this ⊢
    omega
  | reference _ _ h _ _ _ => intro x hx; cases hx; have := get16_ok h; omega
  | label _ _ _ _ _ ih => intro x hx; cases hx; have := ih _ rfl; exact this
  | _ => intro x hx; first | cases hx | (subst hx; rename_i ih; exact ih _ rfl)

theorem getAddrStr_within {m : Bytes} {pos : Nat} {x : Bytes × Nat} (h : getAddrStr m pos = .ok x) : x.2 ≤ m.length := by
  unfold getAddrStr at h
  simp only [Outcome.bind_eq_ok] at h
  obtain ⟨a, ha, hx⟩ := h
  cases hx
  exact getAddr_within (getAddr_runs m pos) a ha

theorem headOf_within {m : Bytes} {pos : Nat} {x : Bytes × Nat × Nat × Nat} (h : headOf m pos = .ok x) : x.2.2.2 ≤ m.length := by
  unfold headOf at h
  simp only [Outcome.bind_eq_ok] at h
  obtain ⟨a, ha, b, hb, c, hc, d, hd, e, he, h⟩ := h
  cases h
  have := get16_ok he
  show e.2 ≤ _
  omega

theorem textsEnd_within {m : Bytes} (stop : Nat) : ∀ (fuel pos p : Nat), pos ≤ m.length → textsEnd m stop fuel pos = .ok p → p ≤ m.length := by
  intro fuel
  induction fuel with
  | zero =>
    intro pos p hp h
    unfold textsEnd at h
    by_cases hs : pos ≥ stop
    · rw [if_pos hs] at h; cases h; exact hp
    · rw [if_neg hs] at h; cases h
  | succ fuel ih =>
    intro pos p hp h
    unfold textsEnd at h
    by_cases hs : pos < stop
    · rw [if_pos hs] at h
      simp only [Outcome.bind_eq_ok] at h
      obtain ⟨l, hl, h⟩ := h
      exact ih _ _ (getLabel_ok hl).2 h
    · rw [if_neg hs] at h; cases h; exact hp

theorem recordEnd_within {m : Bytes} {pos p : Nat} {x : Bytes × Nat × Nat × Nat} (hx : headOf m pos = .ok x)
    (ht : x.2.1 = 12 ∨ x.2.1 = 16 ∨ x.2.1 = 33 ∨ x.2.1 = 1) (h : recordEnd m pos = .ok p) : p ≤ m.length := by
  unfold recordEnd at h
  simp only [hx, Outcome.bind_ok] at h
  by_cases h1 : x.2.1 = 12
  · rw [if_pos h1] at h
    simp only [Outcome.bind_eq_ok] at h
    obtain ⟨n, hn, h⟩ := h
    cases h
    exact getAddrStr_within hn
  rw [if_neg h1] at h
  by_cases h2 : x.2.1 = 16
  · rw [if_pos h2] at h
    exact textsEnd_within _ _ _ _ (headOf_within hx) h
  rw [if_neg h2] at h
  by_cases h3 : x.2.1 = 33
  · rw [if_pos h3] at h
    unfold serviceOf at h
    simp only [Outcome.bind_eq_ok] at h
    obtain ⟨_, ⟨_, _, _, _, _, _, t, ht, h'⟩, h⟩ := h
    cases h'; cases h
    exact getAddrStr_within ht
  rw [if_neg h3] at h
  have h4 : x.2.1 = 1 := by omega
  rw [if_pos h4] at h
  simp only [Outcome.bind_eq_ok] at h
  obtain ⟨n, hn, h⟩ := h
  cases h
  unfold get32 at hn
  match hd : m.drop x.2.2.2 with
  | [] => rw [hd] at hn; cases hn
  | [a] => rw [hd] at hn; cases hn
  | [a, b] => rw [hd] at hn; cases hn
  | [a, b, c] => rw [hd] at hn; cases hn
  | a :: b :: c :: d :: r =>
    rw [hd] at hn; cases hn
    have := congrArg List.length hd
    simp at this ⊢
    omega

theorem recordsEnd_at {m : Bytes} (hl : m.length ≤ 4096) {pos : Nat} {rs : List Record} (h : RecordsAt m pos rs) : ∃ p, recordsEnd m rs.length pos = .ok p := by
  induction h with
  | nil => exact ⟨_, rfl⟩
  | cons hr _ ih =>
    obtain ⟨p, hp⟩ := ih
    refine ⟨p, ?_⟩
    rw [List.length_cons]
    unfold recordsEnd
    rw [recordEnd_at hl hr]
    exact hp

theorem recordsEnd_cut {m t : Bytes} (hl : (m ++ t).length ≤ 4096) {last : Record} (hlast : ∀ type data, last.data ≠ .other type data) {stop : Nat} :
    ∀ (rs : List Record) (pos p : Nat), RecordsTo (m ++ t) pos (rs ++ [last]) stop → recordsEnd m (rs ++ [last]).length pos = .ok p → stop ≤ m.length := by
  intro rs
  induction rs with
  | nil =>
    intro pos p hr h
    cases hr with
    | cons hr hn =>
      cases hn
      have h : (recordEnd m pos >>= fun q => recordsEnd m 0 q) = .ok p := h
      simp only [Outcome.bind_eq_ok] at h
      obtain ⟨q, hq, h⟩ := h
      have e := recordEnd_more t hq
      rw [recordEnd_at hl hr] at e
      cases e
      cases hx : headOf m pos with
      | throws e => unfold recordEnd at hq; rw [hx] at hq; cases hq
      | ub => unfold recordEnd at hq; rw [hx] at hq; cases hq
      | hang => unfold recordEnd at hq; rw [hx] at hq; cases hq
      | ok x =>
        refine recordEnd_within hx ?_ hq
        obtain ⟨name, data⟩ := last
        obtain ⟨p1, type, len, hname, hhead, hdata, _⟩ := hr
        simp only at hname hdata
        have htype : type < 65536 := by cases hdata <;> omega
        have hm := headOf_more t hx
        rw [headOf_at hl hname hhead htype] at hm
        cases hm
        cases hdata with
        | ptr => exact .inl rfl
        | txt => exact .inr (.inl rfl)
        | srv => exact .inr (.inr (.inl rfl))
        | a => exact .inr (.inr (.inr rfl))
        | other => exact absurd rfl (hlast _ _)
  | cons r rs ih =>
    intro pos p hr h
    cases hr with
    | cons hr hn =>
      have h : (recordEnd m pos >>= fun q => recordsEnd m (rs ++ [last]).length q) = .ok p := h
      simp only [Outcome.bind_eq_ok] at h
      obtain ⟨q, hq, h⟩ := h
      have e := recordEnd_more t hq
      rw [recordEnd_at hl hr] at e
      cases e
      exact ih _ _ hn h

theorem responseTo_counts {m : Bytes} (hl : m.length ≤ 4096) {rs : List Record} {stop : Nat} (h : ResponseTo m rs stop) :
    ∃ start, countsOf m = .ok (rs.length, start) ∧ RecordsTo m start rs stop := by
  obtain ⟨id, flags, questions, answers, authorities, additional, start, b1, b2, b3, b4, hh, hq, hr, hlen⟩ := h
  have h1 := at_take hh
  have h2 := at_take h1.1
  have h3 := at_take h2.1
  have h4 := at_take h3.1
  have q : get16 m 4 = .ok (questions, 6) := by have := get16_at h4.2; rw [Nat.mod_eq_of_lt b1] at this; exact this
  have an : get16 m 6 = .ok (answers, 8) := by have := get16_at h3.2; rw [Nat.mod_eq_of_lt b2] at this; exact this
  have au : get16 m 8 = .ok (authorities, 10) := by have := get16_at h2.2; rw [Nat.mod_eq_of_lt b3] at this; exact this
  have ad : get16 m 10 = .ok (additional, 12) := by have := get16_at h1.2; rw [Nat.mod_eq_of_lt b4] at this; exact this
  refine ⟨start, ?_, hr⟩
  unfold countsOf
  simp only [q, an, au, ad, Outcome.bind_ok, skipQuestions_at hl hq, Outcome.pure_eq, hlen]

theorem RecordsAt.to {m : Bytes} {pos : Nat} {rs : List Record} (h : RecordsAt m pos rs) : ∃ stop, RecordsTo m pos rs stop := by
  induction h with
  | nil => exact ⟨_, .nil⟩
  | cons hr _ ih => obtain ⟨stop, h⟩ := ih; exact ⟨stop, .cons hr h⟩

theorem recordsTo_end {m : Bytes} (hl : m.length ≤ 4096) {pos stop : Nat} {rs : List Record} (h : RecordsTo m pos rs stop) : recordsEnd m rs.length pos = .ok stop := by
  induction h with
  | nil => rfl
  | cons hr _ ih =>
    rw [List.length_cons]
    unfold recordsEnd
    rw [recordEnd_at hl hr]
    exact ih

/-- The second reading ends as the first one, unless that ran out of bytes. -/
def Grows {α : Type} (o o' : Outcome α) : Prop := o = .throws .outOfRange ∨ o' = o

theorem Grows.bind {α β : Type} {o o' : Outcome α} {f f' : α → Outcome β} (h : Grows o o') (hf : ∀ x, o = .ok x → Grows (f x) (f' x)) : Grows (o >>= f) (o' >>= f') := by
  rcases h with rfl | rfl
  · exact .inl rfl
  · cases o' with
    | ok x => exact hf x rfl
    | throws e => exact .inr rfl
    | ub => exact .inr rfl
    | hang => exact .inr rfl

theorem grows16 (m t : Bytes) (pos : Nat) : Grows (get16 m pos) (get16 (m ++ t) pos) := by
  rcases get16_total m pos with ⟨v, h⟩ | h
  · exact .inr (by rw [get16_more t h, h])
  · exact .inl h

theorem grows32 (m t : Bytes) (pos : Nat) : Grows (get32 m pos) (get32 (m ++ t) pos) := by
  rcases get32_total m pos with ⟨v, h⟩ | h
  · exact .inr (by rw [get32_more t h, h])
  · exact .inl h

theorem growsLabel (m t : Bytes) (pos : Nat) : Grows (getLabel m pos) (getLabel (m ++ t) pos) := by
  rcases getLabel_total m pos with ⟨l, p, h⟩ | h
  · exact .inr (by rw [getLabel_more t h, h])
  · exact .inl h

theorem getAddr_loops {m : Bytes} (t : Bytes) {pos : Nat} {seen : List Nat} {o : Outcome (List Bytes × Nat)} (h : GetAddr m pos seen o) :
    o = .throws .logicError → GetAddr (m ++ t) pos seen (.throws .logicError) := by
  induction h with
  | circular h8 hc h hs => intro _; exact .circular (rd8_more t h8) hc (get16_more t h) hs
  | referenceThrows h8 hc h hs _ ih => intro he; cases he; exact .referenceThrows (rd8_more t h8) hc (get16_more t h) hs (ih rfl)
  | restThrows h8 hb hc h _ ih => intro he; cases he; exact .restThrows (rd8_more t h8) hb hc (getLabel_more t h) (ih rfl)
  | @labelThrows pos b seen e h8 hb hc h =>
    intro he; cases he
    rcases getLabel_total m pos with ⟨_, _, h'⟩ | h'
    · rw [h'] at h; cases h
    · rw [h'] at h; cases h
  | root => nofun
  | reference => nofun
  | label => nofun
  | short => nofun
  | half => nofun

theorem growsName (m t : Bytes) (pos : Nat) : Grows (getAddrStr m pos) (getAddrStr (m ++ t) pos) := by
  unfold getAddrStr
  refine Grows.bind ?_ (fun _ _ => .inr rfl)
  obtain ⟨o, ho, _, h⟩ := C41_ends m pos
  rw [getAddr_eq ho]
  rcases h with ⟨l, p, rfl⟩ | rfl | rfl
  · exact .inr (getAddr_eq (getAddr_more t ho _ rfl))
  · exact .inl rfl
  · exact .inr (getAddr_eq (getAddr_loops t ho rfl))

theorem growsHead (m t : Bytes) (pos : Nat) : Grows (headOf m pos) (headOf (m ++ t) pos) :=
  (growsName m t pos).bind fun _ _ => (grows16 _ _ _).bind fun _ _ => (grows16 _ _ _).bind fun _ _ => (grows32 _ _ _).bind fun _ _ => (grows16 _ _ _).bind fun _ _ => .inr rfl

theorem growsService (m t : Bytes) (pos : Nat) : Grows (serviceOf m pos) (serviceOf (m ++ t) pos) :=
  (grows16 m t pos).bind fun _ _ => (grows16 _ _ _).bind fun _ _ => (grows16 _ _ _).bind fun _ _ => (growsName _ _ _).bind fun _ _ => .inr rfl

theorem textsEnd_past (m : Bytes) {stop : Nat} (fuel : Nat) {pos : Nat} (h : pos ≥ stop) : textsEnd m stop fuel pos = .ok pos := by
  cases fuel with
  | zero => unfold textsEnd; rw [if_pos h]
  | succ n => unfold textsEnd; rw [if_neg (by omega)]

theorem growsTexts (m t : Bytes) (stop : Nat) : ∀ (fuel fuel' pos : Nat), fuel ≤ fuel' → Grows (textsEnd m stop fuel pos) (textsEnd (m ++ t) stop fuel' pos) := by
  intro fuel
  induction fuel with
  | zero =>
    intro fuel' pos _
    by_cases h : pos ≥ stop
    · rw [textsEnd_past m 0 h, textsEnd_past (m ++ t) fuel' h]; exact .inr rfl
    · unfold textsEnd; rw [if_neg h]; exact .inl rfl
  | succ fuel ih =>
    intro fuel' pos hle
    obtain ⟨n, rfl⟩ : ∃ n, fuel' = n + 1 := ⟨fuel' - 1, by omega⟩
    by_cases h : pos < stop
    · unfold textsEnd
      rw [if_pos h, if_pos h]
      exact (growsLabel m t pos).bind fun l _ => ih n l.2 (by omega)
    · rw [textsEnd_past m _ (by omega), textsEnd_past (m ++ t) _ (by omega)]; exact .inr rfl

theorem growsRecord (m t : Bytes) (pos : Nat) : Grows (recordEnd m pos) (recordEnd (m ++ t) pos) := by
  unfold recordEnd
  refine (growsHead m t pos).bind fun h _ => ?_
  by_cases h1 : h.2.1 = 12
  · rw [if_pos h1, if_pos h1]; exact (growsName _ _ _).bind fun _ _ => .inr rfl
  rw [if_neg h1, if_neg h1]
  by_cases h2 : h.2.1 = 16
  · rw [if_pos h2, if_pos h2]; exact growsTexts _ _ _ _ _ _ (by simp)
  rw [if_neg h2, if_neg h2]
  by_cases h3 : h.2.1 = 33
  · rw [if_pos h3, if_pos h3]; exact (growsService _ _ _).bind fun _ _ => .inr rfl
  rw [if_neg h3, if_neg h3]
  by_cases h4 : h.2.1 = 1
  · rw [if_pos h4, if_pos h4]; exact (grows32 _ _ _).bind fun _ _ => .inr rfl
  rw [if_neg h4, if_neg h4]
  exact .inr rfl

theorem growsRecords (m t : Bytes) : ∀ (n pos : Nat), Grows (recordsEnd m n pos) (recordsEnd (m ++ t) n pos) := by
  intro n
  induction n with
  | zero => intro pos; exact .inr rfl
  | succ n ih => intro pos; exact (growsRecord m t pos).bind fun p _ => ih p

theorem growsQuestions (m t : Bytes) : ∀ (n pos : Nat), Grows (skipQuestions m n pos) (skipQuestions (m ++ t) n pos) := by
  intro n
  induction n with
  | zero => intro pos; exact .inr rfl
  | succ n ih => intro pos; exact (growsName m t pos).bind fun _ _ => (grows16 _ _ _).bind fun _ _ => (grows16 _ _ _).bind fun _ _ => ih _

theorem growsDatagram (m t : Bytes) : Grows (datagramEnd m) (datagramEnd (m ++ t)) :=
  ((grows16 m t 4).bind fun _ _ => (grows16 _ _ _).bind fun _ _ => (grows16 _ _ _).bind fun _ _ => (grows16 _ _ _).bind fun _ _ =>
    (growsQuestions _ _ _ _).bind fun _ _ => .inr rfl).bind fun _ _ => growsRecords _ _ _ _

/-! ## C120 -/

/-- **C120.** For a datagram, whatever it contains, nothing or the text of one exception is written, and of one of two kinds: the datagram is too short, or a name in it leads back to
itself. -/
theorem C120_texts (what : Exn → Bytes) (m : Bytes) :
    complaintOf what m = [] ∨ complaintOf what m = what .outOfRange ∨ complaintOf what m = what .logicError := by
  unfold complaintOf
  rcases settledDatagram m with ⟨p, h⟩ | h | h
  · rw [h]; exact .inl rfl
  · rw [h]; exact .inr (.inl rfl)
  · rw [h]; exact .inr (.inr rfl)

theorem complaint_whole (what : Exn → Bytes) {m : Bytes} {rs : List Record} (h : Response m rs) (hl : m.length ≤ 4096) : complaintOf what m = [] := by
  obtain ⟨start, hc, hr⟩ := response_counts hl h
  obtain ⟨p, hp⟩ := recordsEnd_at hl hr
  unfold complaintOf datagramEnd
  simp only [hc, Outcome.bind_ok, hp]

/-- **C120.** When all datagrams are responses, nothing is written. -/
theorem C120_quiet (what : Exn → Bytes) {msgs : List Bytes} {rss : List (List Record)} (h : Responses msgs rss) (hl : ∀ m ∈ msgs, m.length ≤ 4096) :
    discoverErr what msgs = [] := by
  induction h with
  | nil => rfl
  | @cons m ms rs rss hr _ ih =>
    have := ih (fun m hm => hl m (List.mem_cons_of_mem _ hm))
    unfold discoverErr at this ⊢
    rw [List.flatMap_cons, this, List.append_nil, complaint_whole what hr (hl m List.mem_cons_self)]

/-- **C120.** For the beginning of a response nothing is written, or that it is too short. -/
theorem C120_begins (what : Exn → Bytes) {m t : Bytes} {rs : List Record} (h : Response (m ++ t) rs) (hl : (m ++ t).length ≤ 4096) :
    complaintOf what m = [] ∨ complaintOf what m = what .outOfRange := by
  obtain ⟨start, hc, hr⟩ := response_counts hl h
  obtain ⟨p, hp⟩ := recordsEnd_at hl hr
  have he : datagramEnd (m ++ t) = .ok p := by unfold datagramEnd; simp only [hc, Outcome.bind_ok, hp]
  unfold complaintOf
  rcases growsDatagram m t with hg | hg
  · rw [hg]; exact .inr rfl
  · rw [← hg, he]; exact .inl rfl

/-- **C120.** Every response says where its records end (`C120_ends`), and when it is cut off before that place it is too short, which is written to the standard error; provided that the
last record is of a type that is read. -/
theorem C120_cut (what : Exn → Bytes) {m t : Bytes} {rs : List Record} {last : Record} {stop : Nat} (h : ResponseTo (m ++ t) (rs ++ [last]) stop)
    (hl : (m ++ t).length ≤ 4096) (hlast : ∀ type data, last.data ≠ .other type data) (hm : m.length < stop) : complaintOf what m = what .outOfRange := by
  obtain ⟨start, hc, hr⟩ := responseTo_counts hl h
  have he : datagramEnd (m ++ t) = .ok stop := by unfold datagramEnd; simp only [hc, Outcome.bind_ok, recordsTo_end hl hr]
  unfold complaintOf
  rcases growsDatagram m t with hg | hg
  · rw [hg]
  · exfalso
    rw [he] at hg
    have hp := hg.symm
    unfold datagramEnd at hp
    simp only [Outcome.bind_eq_ok] at hp
    obtain ⟨c, hc', hp⟩ := hp
    have := countsOf_more t hc'
    rw [hc] at this
    cases this
    have := recordsEnd_cut hl hlast rs start stop hr hp
    omega

/-- **C120.** When the name in the first question refers to itself, the other text is written, whatever follows. -/
theorem C120_loop (what : Exn → Bytes) {m : Bytes} {id flags questions answers authorities additional : Nat} (hq : 0 < questions) (hq' : questions < 65536)
    (hh : At m 0 (be16 id ++ be16 flags ++ be16 questions ++ be16 answers ++ be16 authorities ++ be16 additional)) (hn : At m 12 (be16 (49152 + 12))) :
    complaintOf what m = what .logicError := by
  have h1 := at_take hh
  have h2 := at_take h1.1
  have h3 := at_take h2.1
  have h4 := at_take h3.1
  have q : get16 m 4 = .ok (questions, 6) := by have := get16_at h4.2; rw [Nat.mod_eq_of_lt hq'] at this; exact this
  have an : get16 m 6 = .ok (answers % 65536, 8) := get16_at h3.2
  have au : get16 m 8 = .ok (authorities % 65536, 10) := get16_at h2.2
  have ad : get16 m 10 = .ok (additional % 65536, 12) := get16_at h1.2
  have r := get16_at hn
  have r : get16 m 12 = .ok (49164, 14) := r
  have h8 : rd8 (m.drop 12) = .ok (192, m.drop 13) := by
    obtain ⟨b, hb⟩ := at_drop hn
    have hb' : m.drop 13 = [12] ++ b := by
      rw [show (13 : Nat) = 12 + 1 from rfl, ← List.drop_drop, hb]; rfl
    rw [hb, hb']; rfl
  have hg : getAddr m 12 = .throws .logicError :=
    getAddr_eq (.referenceThrows h8 (by decide) r (by simp) (.circular h8 (by decide) r (by simp)))
  obtain ⟨n, rfl⟩ : ∃ n, questions = n + 1 := ⟨questions - 1, by omega⟩
  have hs : skipQuestions m (n + 1) 12 = .throws .logicError := by
    unfold skipQuestions getAddrStr
    rw [hg]; rfl
  unfold complaintOf datagramEnd countsOf
  simp only [q, an, au, ad, Outcome.bind_ok, hs]
  rfl

/-- **C120.** Of several datagrams that are responses, cut off, or refer to themselves: the text for each of the latter, in their order, and nothing else. -/
theorem C120_each (what : Exn → Bytes) {msgs : List Bytes} {s : Bytes} (h : ToSay (what .outOfRange) (what .logicError) msgs s) : discoverErr what msgs = s := by
  induction h with
  | nil => rfl
  | @whole m ms rs s hr hl _ ih =>
    unfold discoverErr at ih ⊢
    rw [List.flatMap_cons, ih, complaint_whole what hr hl, List.nil_append]
  | @cut m ms s hc _ ih =>
    obtain ⟨t, rs, last, stop, h1, h2, h3, h4⟩ := hc
    unfold discoverErr at ih ⊢
    rw [List.flatMap_cons, ih, C120_cut what h1 h2 h3 h4]
  | @loops m ms s hc _ ih =>
    obtain ⟨id, flags, questions, answers, authorities, additional, h1, h2, h3, h4⟩ := hc
    unfold discoverErr at ih ⊢
    rw [List.flatMap_cons, ih, C120_loop what h1 h2 h3 h4]

theorem C120_ends {m : Bytes} {rs : List Record} (h : Response m rs) : ∃ stop, ResponseTo m rs stop := by
  obtain ⟨id, flags, questions, answers, authorities, additional, start, b1, b2, b3, b4, hh, hq, hr, hlen⟩ := h
  obtain ⟨stop, hr⟩ := RecordsAt.to hr
  exact ⟨stop, id, flags, questions, answers, authorities, additional, start, b1, b2, b3, b4, hh, hq, hr, hlen⟩

/-- A datagram with the address 1.2.3.4 in a record of five bytes. -/
def wrongLength : Bytes := [0, 0, 132, 0, 0, 0, 0, 1, 0, 0, 0, 0, 0, 0, 1, 0, 1, 0, 0, 0, 0, 0, 5, 1, 2, 3, 4]

theorem wrongLength_other (rs : List Record) : ¬ Response wrongLength rs := by
  intro h
  obtain ⟨id, flags, questions, answers, authorities, additional, start, b1, b2, b3, b4, hh, hq, hr, hlen⟩ := h
  have h1 := at_take hh
  have h2 := at_take h1.1
  have h3 := at_take h2.1
  have h4 := at_take h3.1
  have q : get16 wrongLength 4 = .ok (questions, 6) := by have := get16_at h4.2; rw [Nat.mod_eq_of_lt b1] at this; exact this
  have an : get16 wrongLength 6 = .ok (answers, 8) := by have := get16_at h3.2; rw [Nat.mod_eq_of_lt b2] at this; exact this
  have q' : get16 wrongLength 4 = .ok (0, 6) := rfl
  have an' : get16 wrongLength 6 = .ok (1, 8) := rfl
  rw [q'] at q; rw [an'] at an
  cases q; cases an
  cases hq
  cases hr with
  | nil => simp at hlen; omega
  | @cons _ stop r rs hr _ =>
    obtain ⟨name, data⟩ := r
    obtain ⟨p, type, len, hname, hhead, hdata, _⟩ := hr
    simp only at hname hdata
    have htype : type < 65536 := by cases hdata <;> omega
    have hm := headOf_at (by decide) hname hhead htype
    have hm' : headOf wrongLength 12 = .ok ([], 1, 5, 23) := by decide +kernel
    rw [hm'] at hm
    simp only [Outcome.ok.injEq, Prod.mk.injEq] at hm
    obtain ⟨_, rfl, rfl, _⟩ := hm
    cases hdata with
    | other _ _ _ _ h => exact h rfl

/-- **C120 is false in one point.** Records whose data does not end where their length says are not refused: the check that is there for it can not be reached. -/
theorem C120_length_false : ¬ ∀ (what : Exn → Bytes) (m : Bytes), (∀ e, what e ≠ []) → m.length ≤ 4096 → complaintOf what m = [] → ∃ rs, Response m rs := by
  intro h
  obtain ⟨rs, hr⟩ := h (fun _ => [33]) wrongLength (fun _ => by simp) (by decide) (by decide +kernel)
  exact wrongLength_other rs hr

/-- The address is taken nevertheless. -/
example : (readResponse wrongLength start).st.as.get? [] = some [ascii "1.2.3.4"] := by decide +kernel

/-- The hypotheses of `C120_cut`: the records of the response end at its end, and the last is an address. -/
theorem example_cut : ∃ rs last, exampleRecords = rs ++ [last] ∧ (∀ type data, last.data ≠ .other type data) ∧
    ResponseTo (exampleResponse.take 60 ++ exampleResponse.drop 60) (rs ++ [last]) exampleResponse.length ∧ (exampleResponse.take 60).length < exampleResponse.length := by
  refine ⟨exampleRecords.dropLast, exampleRecords.getLast (by decide), (List.dropLast_concat_getLast _).symm, ?_, ?_, by decide +kernel⟩
  · intro type data h; cases h
  · rw [List.take_append_drop, List.dropLast_concat_getLast]
    obtain ⟨stop, h⟩ := C120_ends example_response
    have hl : exampleResponse.length ≤ 4096 := by decide +kernel
    obtain ⟨st, hc, hr⟩ := responseTo_counts hl h
    have he : datagramEnd exampleResponse = .ok stop := by
      unfold datagramEnd
      simp only [hc, Outcome.bind_ok, recordsTo_end hl hr]
    have he' : datagramEnd exampleResponse = .ok exampleResponse.length := by decide +kernel
    rw [he] at he'
    cases he'
    exact h

/-- The hypotheses of `C120_each`, with two datagrams of the first two kinds each and one of the third. -/
example : ToSay [79] [67] [exampleResponse, exampleResponse.take 60, [0, 0, 0, 0, 0, 1, 0, 0, 0, 0, 0, 0, 192, 12, 0, 1, 0, 1], exampleResponse, exampleResponse.take 60] [79, 67, 79] := by
  have hc : CutOff (exampleResponse.take 60) := by
    obtain ⟨rs, last, _, h1, h2, h3⟩ := example_cut
    exact ⟨_, rs, last, _, h2, by rw [List.take_append_drop]; decide +kernel, h1, h3⟩
  have hw : exampleResponse.length ≤ 4096 := by decide +kernel
  have hlp : Loops [0, 0, 0, 0, 0, 1, 0, 0, 0, 0, 0, 0, 192, 12, 0, 1, 0, 1] :=
    ⟨0, 0, 1, 0, 0, 0, by decide, by decide, at_of (by decide +kernel) (by decide +kernel), at_of (by decide +kernel) (by decide +kernel)⟩
  exact .whole example_response hw (.cut (s := [67, 79]) hc (.loops (s := [79]) hlp (.whole example_response hw (.cut (s := []) hc .nil))))

/-- Nothing for the response, something for each beginning of it; a name that leads back to itself is the other kind. -/
example : Response exampleResponse exampleRecords ∧ complaintOf (fun e => if e = .logicError then [67] else [79]) exampleResponse = [] ∧
    complaintOf (fun e => if e = .logicError then [67] else [79]) (exampleResponse.take 60) = [79] ∧
    complaintOf (fun e => if e = .logicError then [67] else [79]) [0, 0, 0, 0, 0, 1, 0, 0, 0, 0, 0, 0, 192, 12, 0, 1, 0, 1] = [67] ∧
    At [0, 0, 0, 0, 0, 1, 0, 0, 0, 0, 0, 0, 192, 12, 0, 1, 0, 1] 12 (be16 (49152 + 12)) :=
  ⟨example_response, by decide +kernel, by decide +kernel, by decide +kernel, at_of (by decide +kernel) (by decide +kernel)⟩

end Verif.Discovery
