import Verif.Discovery.Names
import Verif.Discovery.Spec
import Verif.Text.Lemmas

/-! # Queries carry the asked names -/

namespace Verif.Discovery

open Spec
open Verif.Text (joinString splitString)

/-! ## Facts about the specification -/

theorem Spec.At.mono {msg x more : Bytes} {pos : Nat} (h : At msg pos x) : At (msg ++ more) pos x := by
  obtain ⟨a, b, rfl, h⟩ := h
  exact ⟨a, b ++ more, by simp, h⟩

theorem Spec.NameAt.mono {msg more : Bytes} {pos stop : Nat} {ls : List Bytes} (h : NameAt msg pos ls stop) : NameAt (msg ++ more) pos ls stop := by
  induction h with
  | root h => exact .root h.mono
  | label h1 h2 h _ ih => exact .label h1 h2 h.mono ih
  | reference h1 h2 h _ ih => exact .reference h1 h2 h.mono ih

theorem Spec.NameAt.le {msg : Bytes} {pos stop : Nat} {ls : List Bytes} (h : NameAt msg pos ls stop) : pos ≤ stop := by
  induction h with
  | root => omega
  | label _ _ _ _ ih => omega
  | reference => omega

theorem at_drop {msg x : Bytes} {pos : Nat} (h : At msg pos x) : ∃ b, msg.drop pos = x ++ b := by
  obtain ⟨a, b, rfl, rfl⟩ := h
  exact ⟨b, by simp [List.append_assoc]⟩

theorem be16_high {n : Nat} (h : n < 16384) : ∃ b : UInt8, ∃ r, be16 (49152 + n) = b :: r ∧ b.toNat / 64 = 3 := by
  refine ⟨_, _, rfl, ?_⟩
  rw [UInt8.toNat_ofNat']
  omega

theorem ofNat_small {n : Nat} (h1 : 1 ≤ n) (h2 : n ≤ 63) : (UInt8.ofNat n).toNat = n := by
  rw [UInt8.toNat_ofNat']; omega

/-- Every place of a message holds at most one name. -/
theorem Spec.NameAt.unique {msg : Bytes} {pos stop : Nat} {ls : List Bytes} (h : NameAt msg pos ls stop) :
    ∀ {ls' : List Bytes} {stop' : Nat}, NameAt msg pos ls' stop' → ls' = ls ∧ stop' = stop := by
  induction h with
  | root h =>
    intro ls' stop' h'
    obtain ⟨b, hb⟩ := at_drop h
    cases h' with
    | root => exact ⟨rfl, rfl⟩
    | label h1 h2 h3 _ =>
      obtain ⟨b', hb'⟩ := at_drop h3
      rw [hb] at hb'
      simp only [List.cons_append, List.nil_append, List.cons.injEq] at hb'
      have := congrArg UInt8.toNat hb'.1
      rw [ofNat_small h1 h2] at this
      simp at this; omega
    | reference h1 h2 h3 _ =>
      obtain ⟨b', hb'⟩ := at_drop h3
      obtain ⟨x, r, hx, hx3⟩ := be16_high h1
      rw [hb, hx] at hb'
      simp only [List.cons_append, List.nil_append, List.cons.injEq] at hb'
      rw [← hb'.1] at hx3; simp at hx3
  | @label pos stop l ls h1 h2 h _ ih =>
    intro ls' stop' h'
    obtain ⟨b, hb⟩ := at_drop h
    cases h' with
    | root h3 =>
      obtain ⟨b', hb'⟩ := at_drop h3
      rw [hb] at hb'
      simp only [List.cons_append, List.nil_append, List.cons.injEq] at hb'
      have := congrArg UInt8.toNat hb'.1
      rw [ofNat_small h1 h2] at this
      have : l.length = 0 := this
      omega
    | @label _ _ l' ls' g1 g2 h3 h4 =>
      obtain ⟨b', hb'⟩ := at_drop h3
      rw [hb] at hb'
      simp only [List.cons_append, List.cons.injEq] at hb'
      have hl := congrArg UInt8.toNat hb'.1
      rw [ofNat_small h1 h2, ofNat_small g1 g2] at hl
      have := (List.append_inj hb'.2 hl).1
      subst this
      obtain ⟨rfl, rfl⟩ := ih h4
      exact ⟨rfl, rfl⟩
    | reference g1 g2 h3 _ =>
      obtain ⟨b', hb'⟩ := at_drop h3
      obtain ⟨x, r, hx, hx3⟩ := be16_high g1
      rw [hb, hx] at hb'
      simp only [List.cons_append, List.cons.injEq] at hb'
      rw [← hb'.1, ofNat_small h1 h2] at hx3; omega
  | @reference pos ref stop ls h1 h2 h _ ih =>
    intro ls' stop' h'
    obtain ⟨b, hb⟩ := at_drop h
    obtain ⟨x, r, hx, hx3⟩ := be16_high h1
    cases h' with
    | root h3 =>
      obtain ⟨b', hb'⟩ := at_drop h3
      rw [hb, hx] at hb'
      simp only [List.cons_append, List.nil_append, List.cons.injEq] at hb'
      rw [hb'.1] at hx3; simp at hx3
    | label g1 g2 h3 _ =>
      obtain ⟨b', hb'⟩ := at_drop h3
      rw [hb, hx] at hb'
      simp only [List.cons_append, List.cons.injEq] at hb'
      rw [hb'.1, ofNat_small g1 g2] at hx3; omega
    | @reference _ ref' _ _ g1 g2 h3 h4 =>
      obtain ⟨b', hb'⟩ := at_drop h3
      rw [hb] at hb'
      have e := (List.append_inj hb' rfl).1
      have e1 : rd16 (be16 (49152 + ref) ++ []) = rd16 (be16 (49152 + ref') ++ []) := by rw [e]
      rw [rd16_be16, rd16_be16] at e1
      simp only [Outcome.ok.injEq, Prod.mk.injEq, and_true] at e1
      have : ref' = ref := by omega
      subst this
      exact ⟨(ih h4).1, rfl⟩

/-! ## The program's decoder agrees with the specification -/

theorem getLabel_at {msg l : Bytes} {pos : Nat} (h1 : 1 ≤ l.length) (h2 : l.length ≤ 63) (h : At msg pos (UInt8.ofNat l.length :: l)) :
    getLabel msg pos = .ok (l, pos + 1 + l.length) := by
  obtain ⟨b, hb⟩ := at_drop h
  have hd : msg.drop (pos + 1) = l ++ b := by rw [← List.drop_drop, hb]; rfl
  unfold getLabel get8
  rw [hb]
  simp only [rd8, List.cons_append, Outcome.bind_ok, Outcome.pure_eq]
  rw [ofNat_small h1 h2, hd, rdBytes_append l b _ rfl]
  rfl

theorem getAddr_nameAt {msg : Bytes} {pos stop : Nat} {ls : List Bytes} (h : NameAt msg pos ls stop) (hl : msg.length ≤ 4096) :
    ∀ seen : List Nat, (∀ x ∈ seen, ∀ ls' stop', NameAt msg x ls' stop' → ls.length < ls'.length ∨ (ls.length = ls'.length ∧ pos ≤ x)) →
    GetAddr msg pos seen (.ok (ls, stop)) := by
  induction h with
  | @root pos h =>
    intro seen _
    obtain ⟨b, hb⟩ := at_drop h
    exact .root (rd8_drop hb)
  | @label pos stop l ls h1 h2 h _ ih =>
    intro seen hs
    obtain ⟨b, hb⟩ := at_drop h
    have h8 := rd8_drop hb
    rw [ofNat_small h1 h2] at h8
    refine .label h8 (by omega) (by omega) (getLabel_at h1 h2 h) (ih seen fun x hx ls' stop' hn => ?_)
    have := hs x hx ls' stop' hn
    simp only [List.length_cons] at this
    left; omega
  | @reference pos ref stop ls h1 h2 h hn ih =>
    intro seen hs
    obtain ⟨b, hb⟩ := at_drop h
    obtain ⟨x, r, hx, hx3⟩ := be16_high h1
    have h8 : rd8 (msg.drop pos) = .ok (x.toNat, msg.drop (pos + 1)) := rd8_drop (r := r ++ b) (by rw [hb, hx]; rfl)
    have hp : pos < msg.length := by
      have := congrArg List.length hb
      simp at this; omega
    have hr : (49152 + ref) % 65536 % 4096 = ref := by omega
    have h16 : get16 msg pos = .ok ((49152 + ref) % 65536, pos + 2) := by
      unfold get16; rw [hb, rd16_be16]; rfl
    have hns : ref ∉ seen := by
      intro hm
      have := hs ref hm ls stop hn
      omega
    refine .reference (p' := stop) h8 hx3 h16 (by rw [hr]; exact hns) ?_
    rw [hr]
    refine ih (ref :: seen) fun y hy ls' stop' hn' => ?_
    rcases List.mem_cons.1 hy with rfl | hy
    · obtain ⟨rfl, rfl⟩ := NameAt.unique hn hn'
      exact .inr ⟨rfl, Nat.le_refl _⟩
    · rcases hs y hy ls' stop' hn' with h | ⟨h, h'⟩
      · exact .inl h
      · exact .inr ⟨h, by omega⟩

/-- **C42.** The program's own decoder reads, from messages of up to 4096 bytes, the names that stand there according to the compression rules. -/
theorem C42_decoder {msg : Bytes} {pos stop : Nat} {ls : List Bytes} (h : NameAt msg pos ls stop) (hl : msg.length ≤ 4096) :
    getAddr msg pos = .ok (ls, stop) :=
  getAddr_eq (getAddr_nameAt h hl [] nofun)

/-! ## The encoder -/

theorem dotted_eq (ls : List Bytes) : joinString [46] ls = dotted ls := by
  induction ls with
  | nil => rfl
  | cons l ls ih =>
    cases ls with
    | nil => rfl
    | cons m ls => rw [Text.joinString_cons, ih]; simp [dotted]

theorem split_dotted {ls : List Bytes} (h : Labels ls) (hd : NoDots ls) : splitString [46] (dotted ls) = ls := by
  rw [← dotted_eq]; exact Text.splitString_join 46 ls h.1 hd

theorem dotted_inj {ls ls' : List Bytes} (h : Labels ls) (hd : NoDots ls) (h' : Labels ls') (hd' : NoDots ls') (he : dotted ls = dotted ls') :
    ls = ls' := by
  rw [← split_dotted h hd, he, split_dotted h' hd']

theorem dotted_length {l : Bytes} {ls : List Bytes} (h : 1 ≤ l.length) : (dotted ls).length < (dotted (l :: ls)).length := by
  cases ls with
  | nil => simp [dotted]; omega
  | cons m ls => simp [dotted]; omega

/-- An entry of the suffix table points at a name. -/
def Entry (q : Bytes) (e : Bytes × Nat) : Prop :=
  e.2 < 4096 ∧ e.2 < q.length ∧ ∃ ls stop, Labels ls ∧ NoDots ls ∧ e.1 = dotted ls ∧ NameAt q e.2 ls stop

theorem Entry.mono {q more : Bytes} {e : Bytes × Nat} (h : Entry q e) : Entry (q ++ more) e := by
  obtain ⟨h1, h2, ls, stop, h3, h4, h5, h6⟩ := h
  exact ⟨h1, by rw [List.length_append]; omega, ls, stop, h3, h4, h5, h6.mono⟩

theorem position_mem {sp : List (Bytes × Nat)} {s : Bytes} {p : Nat} (h : position sp s = some p) : (s, p) ∈ sp := by
  induction sp with
  | nil => cases h
  | cons e sp ih =>
    obtain ⟨k, v⟩ := e
    unfold position at h
    split at h
    · rename_i hk; subst hk; cases h; simp
    · exact List.mem_cons_of_mem _ (ih h)

/-- `putName` only appends. -/
theorem putName_prefix (ls : List Bytes) : ∀ (q : Bytes) (sp : List (Bytes × Nat)), ∃ more, (putName ls q sp).1 = q ++ more ∧ more ≠ [] := by
  induction ls with
  | nil => intro q sp; exact ⟨_, rfl, by simp [be8]⟩
  | cons l ls ih =>
    intro q sp
    unfold putName
    split
    · exact ⟨_, rfl, by simp [be16]⟩
    · obtain ⟨m, hm, _⟩ := ih (q ++ be8 l.length ++ l) (sp ++ [(joinString [46] (l :: ls), q.length % 65536)])
      exact ⟨be8 l.length ++ l ++ m, by rw [hm]; simp, by simp [be8]⟩

theorem putName_spec (ls : List Bytes) : ∀ (q : Bytes) (sp : List (Bytes × Nat)),
    (∀ l ∈ ls, 1 ≤ l.length ∧ l.length ≤ 63) → NoDots ls →
    (∀ e ∈ sp, e.1.length ≤ (dotted ls).length → Entry q e) → (putName ls q sp).1.length ≤ 4096 →
    NameAt (putName ls q sp).1 q.length ls (putName ls q sp).1.length ∧
    ∃ added, (putName ls q sp).2 = sp ++ added ∧ ∀ e ∈ added, Entry (putName ls q sp).1 e := by
  induction ls with
  | nil =>
    intro q sp _ _ _ _
    refine ⟨?_, [], by simp [putName], nofun⟩
    simp only [putName, be8_length, List.length_append]
    exact .root ⟨q, [], by simp [be8], rfl⟩
  | cons l ls ih =>
    intro q sp hl hd he hlen
    obtain ⟨hl1, hl2⟩ := hl l (by simp)
    unfold putName at hlen ⊢
    cases hp : position sp (joinString [46] (l :: ls)) with
    | some p =>
      simp only [hp] at hlen ⊢
      refine ⟨?_, [], by simp, nofun⟩
      have hm := position_mem hp
      rw [dotted_eq] at hm
      obtain ⟨h1, h2, ls', stop, h3, h4, h5, h6⟩ := he _ hm (Nat.le_refl _)
      simp only at h1 h2 h5 h6
      have : ls' = l :: ls := dotted_inj h3 h4 ⟨nofun, hl⟩ hd h5.symm
      subst this
      have hmod : p % 4096 = p := Nat.mod_eq_of_lt h1
      rw [hmod, List.length_append, be16_length]
      exact .reference (by omega) h2 ⟨q, [], by simp, rfl⟩ h6.mono
    | none =>
      simp only [hp] at hlen ⊢
      rw [dotted_eq] at hlen ⊢
      have hq1 : (q ++ be8 l.length ++ l).length = q.length + 1 + l.length := by simp; omega
      obtain ⟨more, hmore, hne⟩ := putName_prefix ls (q ++ be8 l.length ++ l) (sp ++ [(dotted (l :: ls), q.length % 65536)])
      obtain ⟨hn, added, ha, hv⟩ := ih (q ++ be8 l.length ++ l) (sp ++ [(dotted (l :: ls), q.length % 65536)])
        (fun x hx => hl x (by simp [hx])) (fun x hx => hd x (by simp [hx])) (fun e hm hle => by
          rcases List.mem_append.1 hm with hm | hm
          · rw [List.append_assoc]
            exact (he e hm (by have := dotted_length (ls := ls) hl1; omega)).mono
          · rw [List.mem_singleton.1 hm] at hle
            have := dotted_length (ls := ls) hl1
            simp only at hle; omega) hlen
      rw [hq1] at hn
      generalize hq' : putName ls (q ++ be8 l.length ++ l) (sp ++ [(dotted (l :: ls), q.length % 65536)]) = r at *
      have hat : NameAt r.1 q.length (l :: ls) r.1.length := by
        refine .label hl1 hl2 ⟨q, more, ?_, rfl⟩ hn
        rw [hmore]; simp [be8]
      have hlt : q.length < 4096 := by
        rw [hmore, List.length_append, hq1] at hlen; omega
      refine ⟨hat, (dotted (l :: ls), q.length) :: added, ?_, ?_⟩
      · rw [ha, Nat.mod_eq_of_lt (by omega)]; simp
      · intro e hm
        rcases List.mem_cons.1 hm with rfl | hm
        · refine ⟨hlt, ?_, l :: ls, _, ⟨nofun, hl⟩, hd, rfl, hat⟩
          simp only
          rw [hmore, List.length_append, hq1]; omega
        · exact hv e hm

theorem putQuestions_prefix (qtype : Nat) (addrs : List Bytes) : ∀ (q : Bytes) (sp : List (Bytes × Nat)),
    ∃ more, putQuestions qtype addrs q sp = q ++ more := by
  induction addrs with
  | nil => intro q sp; exact ⟨[], by simp [putQuestions]⟩
  | cons a addrs ih =>
    intro q sp
    unfold putQuestions
    obtain ⟨m, hm, _⟩ := putName_prefix (splitString [46] a) q sp
    simp only [hm]
    obtain ⟨m', hm'⟩ := ih (q ++ m ++ be16 qtype ++ be16 1) (putName (splitString [46] a) q sp).2
    exact ⟨m ++ be16 qtype ++ be16 1 ++ m', by rw [hm']; simp⟩

theorem putQuestions_spec (qtype : Nat) (names : List (List Bytes)) : ∀ (q : Bytes) (sp : List (Bytes × Nat)),
    (∀ n ∈ names, Labels n ∧ NoDots n) → (∀ e ∈ sp, Entry q e) → (putQuestions qtype (names.map dotted) q sp).length ≤ 4096 →
    Questions (putQuestions qtype (names.map dotted) q sp) qtype q.length names := by
  induction names with
  | nil => intro q sp _ _ _; exact .nil
  | cons n names ih =>
    intro q sp hn he hlen
    obtain ⟨hl, hd⟩ := hn n (by simp)
    simp only [List.map_cons, putQuestions, split_dotted hl hd] at hlen ⊢
    obtain ⟨more, hmore⟩ := putQuestions_prefix qtype (names.map dotted) ((putName n q sp).1 ++ be16 qtype ++ be16 1) (putName n q sp).2
    have hle : (putName n q sp).1.length ≤ 4096 := by
      rw [hmore] at hlen; simp at hlen; omega
    obtain ⟨hat, added, ha, hv⟩ := putName_spec n q sp hl.2 hd (fun e hm _ => he e hm) hle
    obtain ⟨m0, hm0, _⟩ := putName_prefix n q sp
    have key := ih ((putName n q sp).1 ++ be16 qtype ++ be16 1) (putName n q sp).2 (fun x hx => hn x (by simp [hx])) (by
      intro e hm
      rw [ha] at hm
      rw [List.append_assoc]
      rcases List.mem_append.1 hm with hm | hm
      · have := (he e hm).mono (more := m0)
        rw [← hm0] at this
        exact this.mono
      · exact (hv e hm).mono) hlen
    rw [hmore] at key ⊢
    refine .cons (stop := (putName n q sp).1.length) ?_ ⟨(putName n q sp).1, more, by simp, rfl⟩ ?_
    · rw [List.append_assoc, List.append_assoc]; exact hat.mono
    · simpa using key

/-- **C42.** A query of up to 4096 bytes for names whose labels have 1 to 63 bytes and no dots in them carries exactly these names, in order, with the
given type. -/
theorem C42_query_partial (id qtype : Nat) (names : List (List Bytes)) (hn : ∀ n ∈ names, Labels n ∧ NoDots n)
    (hlen : (makeQuery id qtype (names.map dotted)).length ≤ 4096) : QueryFor (makeQuery id qtype (names.map dotted)) id qtype names := by
  have hq := putQuestions_spec qtype names
    (be16 id ++ be16 0 ++ be16 (names.map dotted).length ++ be16 0 ++ be16 0 ++ be16 0) [] hn nofun hlen
  rw [show (be16 id ++ be16 0 ++ be16 (names.map dotted).length ++ be16 0 ++ be16 0 ++ be16 0).length = 12 by simp] at hq
  refine ⟨?_, ?_, hq⟩
  · -- every question takes at least four bytes
    have key : ∀ {pos ns}, Questions (makeQuery id qtype (names.map dotted)) qtype pos ns →
        pos + 4 * ns.length ≤ (makeQuery id qtype (names.map dotted)).length := by
      intro pos ns h
      induction h with
      | nil => simp
      | @cons pos stop name names h1 h2 _ ih =>
        have := h1.le
        simp only [List.length_cons]; omega
    have := key hq
    omega
  · obtain ⟨more, hm⟩ := putQuestions_prefix qtype (names.map dotted)
      (be16 id ++ be16 0 ++ be16 (names.map dotted).length ++ be16 0 ++ be16 0 ++ be16 0) []
    exact ⟨[], more, by rw [makeQuery, hm]; simp, rfl⟩

/-- The hypotheses are met, with a suffix that is shared. -/
example : ∃ names : List (List Bytes), (∀ n ∈ names, Labels n ∧ NoDots n) ∧ (makeQuery 0 12 (names.map dotted)).length ≤ 4096 ∧
    makeQuery 0 12 (names.map dotted) = [0, 0, 0, 0, 0, 2, 0, 0, 0, 0, 0, 0, 2, 97, 98, 1, 99, 0, 0, 12, 0, 1, 1, 120, 192, 15, 0, 12, 0, 1] := by
  refine ⟨[[[97, 98], [99]], [[120], [99]]], ?_, ?_, ?_⟩
  · intro n hn; simp at hn
    rcases hn with rfl | rfl <;> refine ⟨⟨nofun, ?_⟩, ?_⟩ <;> intro l hl <;> simp at hl <;> rcases hl with rfl | rfl <;> decide
  · decide +kernel
  · decide +kernel

/-- **C42.** A label with a dot in it, as instance names of printers may have, is asked for as two labels. -/
theorem C42_dots_false : ¬ ∀ (id qtype : Nat) (names : List (List Bytes)), (∀ n ∈ names, Labels n) →
    QueryFor (makeQuery id qtype (names.map dotted)) id qtype names := by
  intro h
  have h1 := (h 0 12 [[[97, 46, 98]]] (by intro n hn; simp at hn; subst hn; exact ⟨nofun, by intro l hl; simp at hl; subst hl; decide⟩)).2.2
  have he : makeQuery 0 12 (List.map dotted [[[97, 46, 98]]]) = [0, 0, 0, 0, 0, 1, 0, 0, 0, 0, 0, 0, 1, 97, 1, 98, 0, 0, 12, 0, 1] := by
    decide +kernel
  rw [he] at h1
  cases h1 with
  | cons hn _ _ =>
    have hd := C42_decoder hn (by decide)
    have : getAddr [0, 0, 0, 0, 0, 1, 0, 0, 0, 0, 0, 0, 1, 97, 1, 98, 0, 0, 12, 0, 1] 12 = .ok ([[97], [98]], 17) := by decide +kernel
    rw [this] at hd
    simp at hd

end Verif.Discovery
