import Verif.Ipp.Warns

/-!
# What encoding a message writes to the standard error, the other direction (C117)

`C117_encode` says that a text about a tag is right. Here: there is a text whenever unknown tags are the reason that a message cannot be encoded.
-/

namespace Verif.Ipp

namespace Spec

mutual
/-- Each value with one of the known tags has the type that the tag asks for, lists of values are not empty and contain no lists. Nothing is said about values with other tags. -/
def Typed (top : Bool) (tag : UInt8) : Value → Prop
  | .set l => top = true ∧ l ≠ [] ∧ TypedList tag l
  | .coll m => tag ∉ knownTags ∨ tag = 0x34 ∧ TypedMembers m
  | .int _ => tag ∉ knownTags ∨ tag = 0x21 ∨ tag = 0x23
  | .bool _ => tag ∉ knownTags ∨ tag = 0x22
  | .date _ => tag ∉ knownTags ∨ tag = 0x31
  | .res _ _ _ => tag ∉ knownTags ∨ tag = 0x32
  | .range _ _ => tag ∉ knownTags ∨ tag = 0x33
  | .str _ => tag ∉ knownTags ∨ tag ∈ stringTags
/-- The values of a list -/
def TypedList (tag : UInt8) : List Value → Prop
  | [] => True
  | v :: r => Typed false tag v ∧ TypedList tag r
/-- The members of a collection -/
def TypedMembers : List (Bytes × (UInt8 × Value)) → Prop
  | [] => True
  | (_, (tag, v)) :: r => Typed true tag v ∧ TypedMembers r
end

end Spec

open Spec

/-! ## Proofs -/

theorem unknown_told {tag : UInt8} (h : tag ∉ knownTags) : tagSays tag ≠ [] := by
  have all : ∀ n : Fin 256, UInt8.ofNat n.val ∉ knownTags → UInt8.ofNat n.val = tUnsupportedAttrs ∨ kind (UInt8.ofNat n.val) = .other := by
    decide +kernel
  have h2 := all ⟨tag.toNat, tag.toNat_lt⟩
  rw [show UInt8.ofNat (⟨tag.toNat, tag.toNat_lt⟩ : Fin 256).val = tag from UInt8.ofNat_toNat] at h2
  unfold tagSays
  rw [if_pos (h2 h)]
  simp [ascii]

theorem string_kind {tag : UInt8} (h : tag ∈ stringTags) : kind tag = .str := by
  have all : ∀ t ∈ stringTags, kind t = .str := by decide
  exact all tag h

mutual
theorem val_silent : (v : Value) → ∀ {top : Bool} {tag : UInt8}, Typed top tag v → valSays top tag v = [] → ∃ b, encodeVal top tag v = .ok b
  | .set l, top, tag, ht, hs => by
    rw [Typed] at ht
    obtain ⟨rfl, hne, hl⟩ := ht
    rw [valSays, if_pos rfl] at hs
    rw [encodeVal, if_pos rfl]
    cases l with
    | nil => exact absurd rfl hne
    | cons v r =>
      rw [TypedList] at hl
      rw [setSays] at hs
      cases he : encodeVal false tag v with
      | ok b =>
        simp only [he] at hs
        obtain ⟨c, hc⟩ := rest_silent r hl.2 hs
        rw [encodeSet, he, Outcome.bind_ok, hc, Outcome.bind_ok]
        exact ⟨_, rfl⟩
      | throws e =>
        simp only [he] at hs
        obtain ⟨b, hb⟩ := val_silent v hl.1 hs
        rw [he] at hb; cases hb
      | ub =>
        simp only [he] at hs
        obtain ⟨b, hb⟩ := val_silent v hl.1 hs
        rw [he] at hb; cases hb
      | hang =>
        simp only [he] at hs
        obtain ⟨b, hb⟩ := val_silent v hl.1 hs
        rw [he] at hb; cases hb
  | .coll m, top, tag, ht, hs => by
    rw [Typed] at ht
    rw [valSays] at hs
    rcases ht with h | ⟨rfl, hm⟩
    · have hk : kind tag ≠ .coll := fun hk => by
        have hs2 : tagSays tag = [] := by
          unfold tagSays
          rw [if_neg]
          rintro (rfl | h2)
          · exact absurd hk (by decide)
          · rw [hk] at h2; cases h2
        exact unknown_told h hs2
      rw [if_neg hk] at hs
      exact absurd hs (unknown_told h)
    · rw [if_pos (by decide)] at hs
      obtain ⟨b, hb⟩ := members_silent m hm hs
      rw [encodeVal, if_pos (by decide), hb, Outcome.bind_ok]
      exact ⟨_, rfl⟩
  | .int _, _, tag, ht, hs => by
    rw [Typed] at ht
    rw [valSays] at hs
    rw [encodeVal]
    rcases ht with h | rfl | rfl
    · exact absurd hs (unknown_told h)
    · exact ⟨_, rfl⟩
    · exact ⟨_, rfl⟩
  | .bool _, _, tag, ht, hs => by
    rw [Typed] at ht
    rw [valSays] at hs
    rw [encodeVal]
    rcases ht with h | rfl
    · exact absurd hs (unknown_told h)
    · exact ⟨_, rfl⟩
  | .date _, _, tag, ht, hs => by
    rw [Typed] at ht
    rw [valSays] at hs
    rw [encodeVal]
    rcases ht with h | rfl
    · exact absurd hs (unknown_told h)
    · exact ⟨_, rfl⟩
  | .res _ _ _, _, tag, ht, hs => by
    rw [Typed] at ht
    rw [valSays] at hs
    rw [encodeVal]
    rcases ht with h | rfl
    · exact absurd hs (unknown_told h)
    · exact ⟨_, rfl⟩
  | .range _ _, _, tag, ht, hs => by
    rw [Typed] at ht
    rw [valSays] at hs
    rw [encodeVal]
    rcases ht with h | rfl
    · exact absurd hs (unknown_told h)
    · exact ⟨_, rfl⟩
  | .str _, _, tag, ht, hs => by
    rw [Typed] at ht
    rw [valSays] at hs
    rw [encodeVal]
    rcases ht with h | h
    · exact absurd hs (unknown_told h)
    · unfold encodeScalar
      rw [string_kind h]
      exact ⟨_, rfl⟩

theorem rest_silent : (l : List Value) → ∀ {tag : UInt8}, TypedList tag l → setSays tag l = [] → ∃ b, encodeRest tag l = .ok b
  | [], _, _, _ => ⟨_, by rw [encodeRest]⟩
  | v :: r, tag, hl, hs => by
    rw [TypedList] at hl
    rw [setSays] at hs
    cases he : encodeVal false tag v with
    | ok b =>
      simp only [he] at hs
      obtain ⟨c, hc⟩ := rest_silent r hl.2 hs
      rw [encodeRest, he, Outcome.bind_ok, hc, Outcome.bind_ok]
      exact ⟨_, rfl⟩
    | throws e =>
      simp only [he] at hs
      obtain ⟨b, hb⟩ := val_silent v hl.1 hs
      rw [he] at hb; cases hb
    | ub =>
      simp only [he] at hs
      obtain ⟨b, hb⟩ := val_silent v hl.1 hs
      rw [he] at hb; cases hb
    | hang =>
      simp only [he] at hs
      obtain ⟨b, hb⟩ := val_silent v hl.1 hs
      rw [he] at hb; cases hb

theorem members_silent : (m : List (Bytes × (UInt8 × Value))) → TypedMembers m → membersSay m = [] → ∃ b, encodeMembers m = .ok b
  | [], _, _ => ⟨_, by rw [encodeMembers]⟩
  | (name, (tag, v)) :: r, hl, hs => by
    rw [TypedMembers] at hl
    rw [membersSay] at hs
    cases he : encodeVal true tag v with
    | ok b =>
      simp only [he] at hs
      obtain ⟨c, hc⟩ := members_silent r hl.2 hs
      rw [encodeMembers, he, Outcome.bind_ok, hc, Outcome.bind_ok]
      exact ⟨_, rfl⟩
    | throws e =>
      simp only [he] at hs
      obtain ⟨b, hb⟩ := val_silent v hl.1 hs
      rw [he] at hb; cases hb
    | ub =>
      simp only [he] at hs
      obtain ⟨b, hb⟩ := val_silent v hl.1 hs
      rw [he] at hb; cases hb
    | hang =>
      simp only [he] at hs
      obtain ⟨b, hb⟩ := val_silent v hl.1 hs
      rw [he] at hb; cases hb
end

theorem attribute_silent {name : Bytes} {attr : Attr} (ht : Typed true attr.1 attr.2) (hs : valSays true attr.1 attr.2 = []) :
    ∃ b, encodeAttribute name attr = .ok b := by
  obtain ⟨b, hb⟩ := val_silent _ ht hs
  unfold encodeAttribute
  rw [hb, Outcome.bind_ok]
  exact ⟨_, rfl⟩

theorem attributes_silent {attrs : Attrs} (ht : ∀ e ∈ attrs, Typed true e.2.1 e.2.2) (hs : attributesSay attrs = []) :
    ∃ b, encodeAttributes attrs = .ok b := by
  induction attrs with
  | nil => exact ⟨_, rfl⟩
  | cons e r ih =>
    obtain ⟨name, attr⟩ := e
    rw [attributesSay] at hs
    split at hs
    · rename_i b he
      obtain ⟨c, hc⟩ := ih (fun e h => ht e (List.mem_cons_of_mem _ h)) hs
      rw [encodeAttributes, he, Outcome.bind_ok, hc, Outcome.bind_ok]
      exact ⟨_, rfl⟩
    · rename_i hne
      obtain ⟨b, hb⟩ := attribute_silent (name := name) (ht (name, attr) List.mem_cons_self) hs
      exact absurd hb (hne b)

theorem op_silent {keys : List Bytes} : ∀ {attrs : Attrs}, (∀ e ∈ attrs, Typed true e.2.1 e.2.2) → opSays keys attrs = [] →
    ∃ r, encodeInitial keys attrs = .ok r := by
  induction keys with
  | nil => intro attrs _ _; exact ⟨_, rfl⟩
  | cons k r ih =>
    intro attrs ht hs
    rw [opSays] at hs
    rw [encodeInitial]
    split at hs
    · rename_i val hv
      simp only [hv]
      split at hs
      · rename_i b he
        obtain ⟨c, hc⟩ := ih (fun e h => ht e (mem_erase h)) hs
        rw [he, Outcome.bind_ok, hc, Outcome.bind_ok]
        exact ⟨_, rfl⟩
      · rename_i hne
        obtain ⟨b, hb⟩ := attribute_silent (name := k) (ht (k, val) (get_mem hv)) hs
        exact absurd hb (hne b)
    · rename_i hv
      simp only [hv]
      exact ih ht hs

theorem jobs_silent {l : List Attrs} (ht : ∀ g ∈ l, ∀ e ∈ g, Typed true e.2.1 e.2.2) (hs : jobsSay l = []) : ∃ b, encodeJobs l = .ok b := by
  induction l with
  | nil => exact ⟨_, rfl⟩
  | cons g r ih =>
    rw [jobsSay] at hs
    split at hs
    · rename_i b he
      obtain ⟨c, hc⟩ := ih (fun e h => ht e (List.mem_cons_of_mem _ h)) hs
      rw [encodeJobs]
      by_cases hg : g = []
      · rw [if_pos hg]; exact ⟨c, hc⟩
      · rw [if_neg hg, he, Outcome.bind_ok, hc, Outcome.bind_ok]; exact ⟨_, rfl⟩
    · rename_i hne
      obtain ⟨b, hb⟩ := attributes_silent (ht g List.mem_cons_self) hs
      exact absurd hb (hne b)

/-! ## Theorem -/

/-- **C117, messages that go out, the other direction.** If each value with a known tag has the type that the tag asks for, a message that cannot be encoded is never refused without a word: the
text names a tag that is none of those that are encoded. -/
theorem C117_encode_told (reqId : Nat) (m : Msg) (ht : ∀ a, AttrOf m a → Typed true a.1 a.2) (h : ¬ ∃ b, encodeMsg reqId m = .ok b) :
    ∃ a t, AttrOf m a ∧ TagIn t a.1 a.2 ∧ t ∉ knownTags ∧ encodeSays m = ascii "uncaught tag " ++ dec t.toNat := by
  refine (C117_encode reqId m).2 (fun hs => h ?_)
  have hop : ∀ e ∈ m.opAttrs, Typed true e.2.1 e.2.2 := fun e he => ht e.2 ⟨e.1, .inl he⟩
  have hjob : ∀ g ∈ m.jobAttrs, ∀ e ∈ g, Typed true e.2.1 e.2.2 := fun g hg e he => ht e.2 ⟨e.1, .inr (.inl ⟨g, hg, he⟩)⟩
  have hprt : ∀ e ∈ m.printerAttrs, Typed true e.2.1 e.2.2 := fun e he => ht e.2 ⟨e.1, .inr (.inr he)⟩
  unfold encodeSays at hs
  unfold encodeMsg
  split at hs
  · rename_i i rest h1
    rw [h1, Outcome.bind_ok]
    have hrest : ∀ e ∈ rest, Typed true e.2.1 e.2.2 := fun e he => hop e (initial_rest h1 e he)
    split at hs
    · rename_i o h2
      show ∃ b, (encodeAttributes rest >>= _) = _
      rw [h2, Outcome.bind_ok]
      split at hs
      · rename_i j h3
        rw [h3, Outcome.bind_ok]
        obtain ⟨p, hp⟩ := attributes_silent hprt hs
        have : ∃ q, encodePrinter m.printerAttrs = .ok q := by
          unfold encodePrinter
          by_cases h0 : m.printerAttrs = []
          · rw [if_pos h0]; exact ⟨_, rfl⟩
          · rw [if_neg h0, hp, Outcome.bind_ok]; exact ⟨_, rfl⟩
        obtain ⟨q, hq⟩ := this
        rw [hq, Outcome.bind_ok]
        exact ⟨_, rfl⟩
      · rename_i hne
        obtain ⟨b, hb⟩ := jobs_silent hjob hs
        exact absurd hb (hne b)
    · rename_i hne
      obtain ⟨b, hb⟩ := attributes_silent hrest hs
      exact absurd hb (hne b)
  · rename_i hne
    obtain ⟨⟨b, rest⟩, hb⟩ := op_silent hop hs
    exact absurd hb (hne b rest)

example : ∃ m : Msg, (∀ a, AttrOf m a → Typed true a.1 a.2) ∧ (¬ ∃ b, encodeMsg 1 m = .ok b) ∧ encodeSays m = ascii "uncaught tag 75" := by
  refine ⟨{ jobAttrs := [[(ascii "media-col", (0x34, .set [.coll [(ascii "a", (0x21, .int 1))], .coll [(ascii "b", (0x4b, .set [.str []]))]]))]] }, ?_, ?_, by decide +kernel⟩
  · rintro a ⟨name, h | ⟨g, hg, h⟩ | h⟩
    · cases h
    · simp only [List.mem_singleton] at hg
      subst hg
      simp only [List.mem_singleton, Prod.mk.injEq] at h
      obtain ⟨_, rfl⟩ := h
      simp only [Typed, TypedList, TypedMembers]
      refine ⟨trivial, by simp, .inr ⟨trivial, .inr (.inl trivial), trivial⟩, .inr ⟨trivial, ⟨trivial, by simp, .inl (by decide), trivial⟩, trivial⟩, trivial⟩
    · cases h
  · rintro ⟨b, hb⟩
    have : (match encodeMsg 1 { jobAttrs := [[(ascii "media-col", (0x34, .set [.coll [(ascii "a", (0x21, .int 1))], .coll [(ascii "b", (0x4b, .set [.str []]))]]))]] } with
      | .ok _ => true | _ => false) = false := by decide +kernel
    rw [hb] at this
    cases this

end Verif.Ipp
