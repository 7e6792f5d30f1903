import Verif.Transport.Model

/-!
# Specification for the streaming upload: what is written and what is sent, in terms of what can be seen

-/

namespace Verif.Transport.Spec

/-- The blocks for which `write` returned true, joined. -/
def written (t : List Ev) : Bytes := t.flatMap (fun e => match e with | .wrote d => d | _ => [])

/-- The bytes that curl was given, joined. -/
def sent (t : List Ev) : Bytes := t.flatMap (fun e => match e with | .gave out => out | _ => [])

/-- curl has been told that there is no more data. -/
def Ended (t : List Ev) : Prop := Ev.gave [] ∈ t

/-- The compression that has been set. -/
def compression (t : List Ev) : Comp := t.foldl (fun k e => match e with | .setComp k' => k' | _ => k) .none

/-- What was written before a compression was set, and what was written after it. -/
def parts (t : List Ev) : Comp × Bytes × Bytes :=
  t.foldl (fun p e => match e with
    | .setComp k => (k, p.2)
    | .wrote d => if p.1 = .none then (p.1, p.2.1 ++ d, p.2.2) else (p.1, p.2.1, p.2.2 ++ d)
    | _ => p) (.none, [], [])

/-- What was written before a compression was set. -/
def header (t : List Ev) : Bytes := (parts t).2.1

/-- What was written after a compression was set. -/
def document (t : List Ev) : Bytes := (parts t).2.2

/-- A use of the compressor `c`, set up for `k`: calls of `deflate` took in `i`, each byte once and in order, and put out `o`; the first calls were made
without the request to finish, the later ones (`f = true`) with it. -/
inductive Run {Z : Type} (c : Codec Z) (k : Comp) : Z → Bytes → Bytes → Bool → Prop
  | start : Run c k (c.init k) [] [] false
  | feed {z : Z} {i o d : Bytes} {n : Nat} : Run c k z i o false →
      Run c k (c.deflate z d n false).1 (i ++ d.take (c.deflate z d n false).2.1) (o ++ (c.deflate z d n false).2.2) false
  | finish {z : Z} {i o d : Bytes} {n : Nat} {f : Bool} : Run c k z i o f →
      Run c k (c.deflate z d n true).1 (i ++ d.take (c.deflate z d n true).2.1) (o ++ (c.deflate z d n true).2.2) true

/-- The compressor `c`, set up for `k`, has taken in `i` and put out `o`, and has been asked to finish until it put out nothing more. -/
def Finished {Z : Type} (c : Codec Z) (k : Comp) (i o : Bytes) : Prop :=
  ∃ z f n, Run c k z i o f ∧ 0 < n ∧ (c.deflate z [] n true).2.2 = []

end Verif.Transport.Spec
