import Verif.Client.PrintProps
import Verif.Ipp.UbLemmas

/-!
# Which functions are defined for whatever a printer says: lemmas for property C101
-/

namespace Verif.Client

open Ipp Job Printer Tools

theorem act_defined {α β : Type} {x : Act α} {f : α → Act β} (hx : x.out.Defined) (hf : ∀ a, x.out = .ok a → (f a).out.Defined) :
    (x >>= f).out.Defined := by
  show (Act.bind x f).out.Defined
  unfold Act.bind
  cases h : x.out with
  | ok a => exact hf a h
  | throws e => exact trivial
  | ub => rw [h] at hx; exact hx
  | hang => rw [h] at hx; exact hx

theorem bind_def {α β : Type} {x : Outcome α} {f : α → Outcome β} (hx : x.Defined) (hf : ∀ a, (f a).Defined) : (x >>= f).Defined :=
  Outcome.bind_defined hx (fun a _ => hf a)

/-! ## Attributes and settings -/

theorem getAs_def (t : Ty) (v : Value) : (getAs t v).Defined := by unfold getAs; split <;> exact trivial

theorem attrs_get_def (a : Attrs) (t : Ty) (n : Bytes) (d : Value) : (Attrs.get a t n d).Defined := by
  unfold Attrs.get
  split
  · exact getAs_def _ _
  · exact trivial

theorem getAll_def (t : Ty) (l : List Value) : (getAll t l).Defined := by
  induction l with
  | nil => exact trivial
  | cons v r ih => exact bind_def (getAs_def t v) (fun _ => bind_def ih (fun _ => trivial))

theorem getList_def (a : Attrs) (t : Ty) (n : Bytes) : (Attrs.getList a t n).Defined := by
  unfold Attrs.getList
  split
  · exact getAll_def _ _
  · exact trivial

theorem strList_def (a : Attrs) (n : Bytes) : (strList a n).Defined := bind_def (getList_def _ _ _) (fun _ => trivial)
theorem intList_def (a : Attrs) (n : Bytes) : (intList a n).Defined := bind_def (getList_def _ _ _) (fun _ => trivial)
theorem getString_def (a : Attrs) (n d : Bytes) : (getString a n d).Defined := bind_def (attrs_get_def _ _ _ _) (fun _ => trivial)
theorem getInteger_def (a : Attrs) (n : Bytes) : (getInteger a n).Defined := bind_def (attrs_get_def _ _ _ _) (fun _ => trivial)

theorem subCollection_def (a : Attrs) (k : Bytes) : (subCollection a k).Defined := by unfold subCollection; split <;> exact trivial

theorem set_def (s : Setting) (v : Value) (a : Attrs) : (s.set v a).Defined := by
  unfold Setting.set
  split
  · exact bind_def (subCollection_def _ _) (fun _ => trivial)
  · exact trivial

theorem isSet_def (s : Setting) (a : Attrs) : (s.isSet a).Defined := by
  unfold Setting.isSet
  split
  · split <;> exact trivial
  · exact trivial

theorem unset_def (s : Setting) (a : Attrs) : (s.unset a).Defined := by
  unfold Setting.unset
  split
  · exact bind_def (subCollection_def _ _) (fun _ => trivial)
  · exact trivial

theorem getAt_def (t : Ty) (a : Attrs) (n : Bytes) : (Setting.getAt t a n).Defined := by
  unfold Setting.getAt
  split
  · exact getAs_def _ _
  · exact trivial

theorem setting_get_def (s : Setting) (pa a : Attrs) (d : Value) : (s.get pa a d).Defined := by
  unfold Setting.get
  refine bind_def (isSet_def _ _) (fun b => ?_)
  unfold Setting.getIf
  split
  · split
    · split
      · exact getAt_def _ _ _
      · exact trivial
      · exact trivial
    · exact getAt_def _ _ _
  · exact attrs_get_def _ _ _ _

theorem getStr_def (s : Setting) (pa a : Attrs) (d : Bytes) : (getStr s pa a d).Defined := bind_def (setting_get_def _ _ _ _) (fun _ => trivial)
theorem getInt_def (s : Setting) (pa a : Attrs) (d : Int) : (getInt s pa a d).Defined := bind_def (setting_get_def _ _ _ _) (fun _ => trivial)

theorem choiceSupports_def (s : Setting) (pa : Attrs) (v : Value) : (s.choiceSupports pa v).Defined := bind_def (getList_def _ _ _) (fun _ => trivial)

theorem integerSupports_def (s : Setting) (pa : Attrs) (i : Int) : (s.integerSupports pa i).Defined := by
  unfold Setting.integerSupports
  split
  · exact bind_def (attrs_get_def _ _ _ _) (fun _ => trivial)
  · exact trivial

/-! ## JSON -/

theorem intAt_def (m : KMap Json) (k : Bytes) : (intAt m k).Defined := by unfold intAt; split <;> exact trivial

mutual
theorem valueFromJson_def (tag : UInt8) : ∀ j, (valueFromJson tag j).Defined
  | .str _ => trivial
  | .num _ => trivial
  | .bool _ => trivial
  | .null => trivial
  | .arr l => by rw [valueFromJson]; exact bind_def (valuesFromJson_def tag l) (fun _ => trivial)
  | .obj m => by
    rw [valueFromJson]
    split
    · exact bind_def (intAt_def _ _) (fun _ => bind_def (intAt_def _ _) (fun _ => trivial))
    · split
      · exact bind_def (intAt_def _ _) (fun _ => bind_def (intAt_def _ _) (fun _ => bind_def (intAt_def _ _) (fun _ => trivial)))
      · split
        · exact trivial
        · split
          · exact bind_def (membersFromJson_def m []) (fun _ => trivial)
          · exact trivial
theorem valuesFromJson_def (tag : UInt8) : ∀ l, (valuesFromJson tag l).Defined
  | [] => trivial
  | j :: r => by rw [valuesFromJson]; exact bind_def (valueFromJson_def tag j) (fun _ => bind_def (valuesFromJson_def tag r) (fun _ => trivial))
theorem membersFromJson_def : ∀ (l : List (Bytes × Json)) (acc : Attrs), (membersFromJson l acc).Defined
  | [], _ => trivial
  | (k, j) :: r, acc => by rw [membersFromJson]; exact bind_def (attrFromJson_def j) (fun _ => membersFromJson_def r _)
theorem attrFromJson_def : ∀ j, (attrFromJson j).Defined
  | .obj m => by rw [attrFromJson]; exact bind_def (intAt_def _ _) (fun _ => bind_def (valueAt_def _ m) (fun _ => trivial))
  | .str _ => trivial
  | .num _ => trivial
  | .bool _ => trivial
  | .null => trivial
  | .arr _ => trivial
theorem valueAt_def (tag : UInt8) : ∀ l, (valueAt tag l).Defined
  | [] => trivial
  | (k, j) :: r => by
    rw [valueAt]
    split
    · exact valueFromJson_def tag j
    · exact valueAt_def tag r
end

theorem attrsFromJson_def (j : Json) : (attrsFromJson j).Defined := membersFromJson_def _ _

/-! ## Encoding -/

theorem encodeScalar_def (tag : UInt8) (v : Value) : (encodeScalar tag v).Defined := by
  unfold encodeScalar
  split
  all_goals first | exact trivial | (split <;> exact trivial)

mutual
theorem encodeVal_def (top : Bool) (tag : UInt8) : ∀ v, (encodeVal top tag v).Defined
  | .set l => by
    rw [encodeVal]
    split
    · exact encodeSet_def tag l
    · exact encodeScalar_def _ _
  | .coll m => by
    rw [encodeVal]
    split
    · exact bind_def (encodeMembers_def m) (fun _ => trivial)
    · exact encodeScalar_def _ _
  | .str _ => by rw [encodeVal]; exact encodeScalar_def _ _
  | .int _ => by rw [encodeVal]; exact encodeScalar_def _ _
  | .bool _ => by rw [encodeVal]; exact encodeScalar_def _ _
  | .range _ _ => by rw [encodeVal]; exact encodeScalar_def _ _
  | .res _ _ _ => by rw [encodeVal]; exact encodeScalar_def _ _
  | .date _ => by rw [encodeVal]; exact encodeScalar_def _ _
theorem encodeSet_def (tag : UInt8) : ∀ l, (encodeSet tag l).Defined
  | [] => trivial
  | v :: r => by rw [encodeSet]; exact bind_def (encodeVal_def false tag v) (fun _ => bind_def (encodeRest_def tag r) (fun _ => trivial))
theorem encodeRest_def (tag : UInt8) : ∀ l, (encodeRest tag l).Defined
  | [] => trivial
  | v :: r => by rw [encodeRest]; exact bind_def (encodeVal_def false tag v) (fun _ => bind_def (encodeRest_def tag r) (fun _ => trivial))
theorem encodeMembers_def : ∀ l, (encodeMembers l).Defined
  | [] => trivial
  | (n, (t, v)) :: r => by rw [encodeMembers]; exact bind_def (encodeVal_def true t v) (fun _ => bind_def (encodeMembers_def r) (fun _ => trivial))
end

theorem encodeAttribute_def (n : Bytes) (a : Attr) : (encodeAttribute n a).Defined := bind_def (encodeVal_def _ _ _) (fun _ => trivial)

theorem encodeAttributes_def (a : Attrs) : (encodeAttributes a).Defined := by
  induction a with
  | nil => exact trivial
  | cons e r ih => exact bind_def (encodeAttribute_def _ _) (fun _ => bind_def ih (fun _ => trivial))

theorem encodeInitial_def (ks : List Bytes) (a : Attrs) : (encodeInitial ks a).Defined := by
  induction ks generalizing a with
  | nil => exact trivial
  | cons k r ih =>
    unfold encodeInitial
    split
    · exact bind_def (encodeAttribute_def _ _) (fun _ => bind_def (ih _) (fun _ => trivial))
    · exact ih _

theorem encodeJobs_def (l : List Attrs) : (encodeJobs l).Defined := by
  induction l with
  | nil => exact trivial
  | cons a r ih =>
    unfold encodeJobs
    split
    · exact ih
    · exact bind_def (encodeAttributes_def _) (fun _ => bind_def ih (fun _ => trivial))

theorem encodeMsg_def (id : Nat) (m : Msg) : (encodeMsg id m).Defined := by
  refine bind_def (encodeInitial_def _ _) (fun _ => bind_def (encodeAttributes_def _) (fun _ => bind_def (encodeJobs_def _) (fun _ => bind_def ?_ (fun _ => trivial))))
  unfold encodePrinter
  split
  · exact trivial
  · exact bind_def (encodeAttributes_def _) (fun _ => trivial)

/-! ## Requests -/

/-- The decoder has a defined result for this reply. -/
def Readable (reply : Except Bytes Bytes) : Prop := ∀ data, reply = .ok data → (decodeMsg data).Defined

theorem received_def {reply : Except Bytes Bytes} (h : Readable reply) : (received reply).Defined := by
  unfold received
  split
  · exact trivial
  · rename_i data
    have := h data rfl
    cases hd : decodeMsg data with
    | ok x => exact trivial
    | throws e => exact trivial
    | ub => rw [hd] at this; exact this
    | hang => rw [hd] at this; exact this

theorem mkMsg_def (p : Printer) (op : UInt16) (a b c : Attrs) : (mkMsg p op a b c).Defined := bind_def (strList_def _ _) (fun _ => trivial)

theorem doRequest_def (id : Nat) (m : Msg) {reply : Except Bytes Bytes} (h : Readable reply) : (doRequest id m reply).out.Defined :=
  act_defined (encodeMsg_def _ _) (fun _ _ => act_defined trivial (fun _ _ => received_def h))

end Verif.Client
