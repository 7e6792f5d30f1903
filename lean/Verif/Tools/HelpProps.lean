import Verif.Tools.ArgsProps
import Verif.Core.Lists

/-! # What the command line's help and error messages say: lib/argget.h; property C95 -/

namespace Verif.Tools

open Spec

/-! ## Model -/

/-- `std::left << std::setw(w) << s` -/
def setwLeft (w : Nat) (s : Bytes) : Bytes := s ++ List.replicate (w - s.length) 32

/-- `ArgGet::_argHelp`, lines 349-374. Options come with their texts (`doc()`). -/
def argHelpRest (opts : List (Opt × Bytes)) (poss : List Pos) : Bytes :=
  (if opts.isEmpty then [] else ascii " [options]") ++ (poss.flatMap (fun p => ascii " " ++ p.docName)) ++ [10] ++
    opts.flatMap (fun o => ascii "  " ++ setwLeft (opts.foldl (fun w o => max w o.1.docName.length) 0) o.1.docName ++ ascii "    " ++ o.2 ++ [10])

/-- `ArgGet::argHelp`, lines 336-340 -/
def argHelp (name : Bytes) (opts : List (Opt × Bytes)) (poss : List Pos) : Bytes := ascii "Usage: " ++ name ++ argHelpRest opts poss

/-- `SubArgGet::argHelp`, lines 437-454, where no two sub-commands have the same name. -/
def subArgHelp (name : Bytes) (subs : List (Bytes × List (Opt × Bytes) × List Pos)) (sub : Bytes) : Bytes :=
  ascii "Usage: " ++ name ++ ascii " <sub-command> [options]" ++ [10, 10] ++
    match subs.find? (fun s => s.1 == sub) with
    | some s => name ++ ascii " " ++ sub ++ argHelpRest s.2.1 s.2.2 ++ [10]
    | none => subs.flatMap (fun s => name ++ ascii " " ++ s.1 ++ argHelpRest s.2.1 s.2.2 ++ [10])

/-! ## Specification -/

namespace Spec

/-- How an option is called in messages: its names with commas between, and what kind of value it takes. -/
def label (o : Opt) : Bytes := List.intercalate (ascii ", ") o.names ++ o.typeHint

/-- How a positional argument is called: optional ones in brackets. -/
def place (p : Pos) : Bytes := if p.optional then ascii "[" ++ p.name ++ ascii "]" else ascii "<" ++ p.name ++ ascii ">"

/-- The name is that of this option (of the first one, if several have it). -/
def Means (opts : List Opt) (name : Bytes) (o : Opt) : Prop :=
  ∃ i : Nat, opts[i]? = some o ∧ name ∈ o.names ∧ ∀ (j : Nat) o', j < i → opts[j]? = some o' → name ∉ o'.names

/-- What is wrong with the words that follow the proper uses of options, and what is said about it. -/
inductive Fault (opts : List Opt) (poss : List Pos) : List Bytes → Bytes → Prop
  /-- an option at the end that should have a value -/
  | noValue (name : Bytes) (o : Opt) (conv : Bytes → Option Val) : Means opts name o → o.takes = some conv →
      Fault opts poss [name] (ascii "Missing value for " ++ label o)
  /-- an option with a value that is none for it, without a text of its own for this -/
  | badValue (name v : Bytes) (more : List Bytes) (o : Opt) (conv : Bytes → Option Val) : Means opts name o → o.takes = some conv → conv v = none → o.errorHint = [] →
      Fault opts poss (name :: v :: more) (ascii "Bad value for " ++ label o ++ ascii " (" ++ v ++ ascii ")")
  /-- and with one -/
  | hinted (name v : Bytes) (more : List Bytes) (o : Opt) (conv : Bytes → Option Val) : Means opts name o → o.takes = some conv → conv v = none → o.errorHint ≠ [] →
      Fault opts poss (name :: v :: more) (o.errorHint ++ ascii " (" ++ v ++ ascii ")")
  /-- more words than positional arguments -/
  | tooMany (a : Bytes) (more : List Bytes) : (∀ o ∈ opts, a ∉ o.names) → poss.length < (a :: more).length →
      Fault opts poss (a :: more) (ascii "Unknown argument: " ++ a)
  /-- fewer words than positional arguments that are not optional -/
  | missing (rest : List Bytes) (p : Pos) (i : Nat) : (∀ a, rest.head? = some a → ∀ o ∈ opts, a ∉ o.names) → rest.length ≤ i → poss[i]? = some p → p.optional = false →
      (∀ (j : Nat) q, rest.length ≤ j → j < i → poss[j]? = some q → q.optional = true) → Fault opts poss rest (ascii "Missing positional argument " ++ place p)

/-- A line of the help: the option, room up to a column, the text. -/
def helpLine (column : Nat) (o : Opt) (doc line : Bytes) : Prop :=
  ∃ gap, line = ascii "  " ++ label o ++ gap ++ doc ++ [10] ∧ (∀ c ∈ gap, c = 32) ∧ 4 ≤ gap.length ∧ (ascii "  " ++ label o ++ gap).length = column

end Spec

/-- The claim that what is called unknown is not among the words that would be positional arguments. -/
def C95_culprit : Prop := ∀ (opts : List Opt) (poss : List Pos) (args : List Bytes) (uses : List Use) (rest : List Bytes) (a : Bytes),
  args = (uses.map (·.words)).flatten ++ rest → (∀ u ∈ uses, IsUse opts u) → (∀ a, rest.head? = some a → ∀ o ∈ opts, a ∉ o.names) →
  (getArgs opts poss args).errMsg = ascii "Unknown argument: " ++ a → a ∉ rest.take poss.length

/-! ## Proofs -/

theorem label_eq (o : Opt) : o.docName = label o := by
  unfold Opt.docName label
  split
  · rename_i h; rw [h]; rfl
  · rename_i n ns h
    rw [h]
    congr 1
    clear h
    induction ns generalizing n with
    | nil => simp [List.intercalate]
    | cons m ns ih =>
      have := ih m
      simp only [List.intercalate, List.intersperse, List.map_cons, List.flatten_cons] at this ⊢
      cases ns <;> simp_all [List.intersperse]

theorem place_eq (p : Pos) : p.docName = place p := rfl

theorem options_fault {opts : List Opt} {args : List Bytes} {vals vals' : Vals} {e : Bytes} (poss : List Pos) (h : options opts args vals = .failed e vals') :
    ∃ (uses : List Use) (rest : List Bytes), args = (uses.map (·.words)).flatten ++ rest ∧ (∀ u ∈ uses, IsUse opts u) ∧ Fault opts poss rest e := by
  have means : ∀ {name i o}, first opts 0 name = some (i, o) → Means opts name o := by
    intro name i o hf
    obtain ⟨-, g1, g2, g3⟩ := first_some hf
    exact ⟨i, g1, g2, g3⟩
  fun_induction options opts args vals with
  | case1 => cases h
  | case2 => cases h
  | case3 name rest2 vals i o hf ht ih =>
    obtain ⟨uses, rest, h1, h2, h3⟩ := ih h
    obtain ⟨-, g1, g2, g3⟩ := first_some hf
    refine ⟨⟨i, [name], .flag⟩ :: uses, rest, by rw [h1]; rfl, ?_, h3⟩
    intro u hu
    rcases List.mem_cons.1 hu with rfl | hu
    · exact ⟨o, name, g1, g2, g3, .inl ⟨ht, rfl, rfl⟩⟩
    · exact h2 u hu
  | case4 name vals i o hf conv ht =>
    cases h
    refine ⟨[], [name], rfl, nofun, ?_⟩
    rw [badValue, label_eq]
    exact .noValue name o conv (means hf) ht
  | case5 name vals i o hf conv ht v rest2 x hx ih =>
    obtain ⟨uses, rest, h1, h2, h3⟩ := ih h
    obtain ⟨-, g1, g2, g3⟩ := first_some hf
    refine ⟨⟨i, [name, v], x⟩ :: uses, rest, by rw [h1]; rfl, ?_, h3⟩
    intro u hu
    rcases List.mem_cons.1 hu with rfl | hu
    · exact ⟨o, name, g1, g2, g3, .inr ⟨conv, v, ht, rfl, hx⟩⟩
    · exact h2 u hu
  | case6 name vals i o hf conv ht v rest2 hx =>
    cases h
    refine ⟨[], _, rfl, nofun, ?_⟩
    rw [badValue]
    split
    · rename_i hne
      exact .hinted name v rest2 o conv (means hf) ht hx hne
    · rename_i he
      rw [label_eq]
      exact .badValue name v rest2 o conv (means hf) ht hx (by simpa using he)

theorem positionals_missing (ps : List Pos) : ∀ (args got g r : List Bytes) (p : Pos), positionals ps args got = (g, r, some p) →
    ∃ i, args.length ≤ i ∧ ps[i]? = some p ∧ p.optional = false ∧ ∀ j q, args.length ≤ j → j < i → ps[j]? = some q → q.optional = true := by
  induction ps with
  | nil => intro args got g r p h; simp [positionals] at h
  | cons q ps ih =>
    intro args got g r p h
    cases args with
    | nil =>
      unfold positionals at h
      split at h
      · rename_i ho
        obtain ⟨i, -, h2, h3, h4⟩ := ih [] got g r p h
        refine ⟨i + 1, by simp, by simpa using h2, h3, ?_⟩
        intro j q' _ hj hq
        cases j with
        | zero => simp at hq; subst hq; exact ho
        | succ j => exact h4 j q' (by simp) (by omega) (by simpa using hq)
      · rename_i ho
        simp only [Prod.mk.injEq, Option.some.injEq] at h
        obtain ⟨-, -, rfl⟩ := h
        exact ⟨0, by simp, rfl, by simpa using ho, by intro j q' _ hj; omega⟩
    | cons a as =>
      rw [positionals] at h
      obtain ⟨i, h1, h2, h3, h4⟩ := ih as _ g r p h
      refine ⟨i + 1, by simp only [List.length_cons]; omega, by simpa using h2, h3, ?_⟩
      intro j q' hj hji hq
      cases j with
      | zero => simp at hj
      | succ j => exact h4 j q' (by simpa using hj) (by omega) (by simpa using hq)

/-- C95: a command line that is refused consists of proper uses of options, if any, and then the words that the message is about. -/
theorem C95_message {opts : List Opt} {poss : List Pos} {args : List Bytes} (h : (getArgs opts poss args).success = false) :
    ∃ (uses : List Use) (rest : List Bytes), args = (uses.map (·.words)).flatten ++ rest ∧ (∀ u ∈ uses, IsUse opts u) ∧ Fault opts poss rest (getArgs opts poss args).errMsg := by
  unfold getArgs at h ⊢
  cases ho : options opts args (fun _ => none) with
  | failed e vals => exact options_fault poss ho
  | done rest vals =>
    obtain ⟨uses, h1, h2, h3, -⟩ := options_done ho
    rw [ho] at h
    simp only at h ⊢
    refine ⟨uses, rest, h1, h2, ?_⟩
    split
    · rename_i hn
      match rest, hn with
      | a :: more, hn => exact .tooMany a more (h3 a rfl) hn
    · rename_i hn
      rw [if_neg hn] at h
      rcases positionals_enough poss rest [] (by omega) with ⟨h4, -⟩ | ⟨p, g, h4, -⟩
      · rw [h4] at h; cases h
      · rw [h4]
        obtain ⟨i, h5, h6, h7, h8⟩ := positionals_missing poss rest [] g [] p h4
        exact .missing rest p i h3 h5 h6 h7 h8

/-- C95: what is wrong decides what is said. -/
theorem C95_one_message {opts : List Opt} {poss : List Pos} {rest : List Bytes} {m m' : Bytes} (h : Fault opts poss rest m) (h' : Fault opts poss rest m') : m = m' := by
  have means : ∀ {name o o'}, Means opts name o → Means opts name o' → o = o' := by
    rintro name o o' ⟨i, h1, h2, h3⟩ ⟨j, h4, h5, h6⟩
    rcases Nat.lt_trichotomy i j with hl | rfl | hl
    · exact absurd h2 (h6 i o hl h1)
    · rw [h1] at h4; exact Option.some.inj h4
    · exact absurd h5 (h3 j o' hl h4)
  have known : ∀ {name o}, Means opts name o → ¬ ∀ o ∈ opts, name ∉ o.names := by
    rintro name o ⟨i, h1, h2, -⟩ h
    exact h o (List.mem_of_getElem? h1) h2
  cases h with
  | noValue name o conv hm ht =>
    cases h' with
    | noValue _ o' _ hm' _ => rw [means hm hm']
    | tooMany _ _ hn _ => exact absurd hn (known hm)
    | missing _ _ _ hn => exact absurd (hn name rfl) (known hm)
  | badValue name v more o conv hm ht hv he =>
    cases h' with
    | badValue _ _ _ o' _ hm' => rw [means hm hm']
    | hinted _ _ _ o' _ hm' _ _ he' => rw [means hm hm'] at he; exact absurd he he'
    | tooMany _ _ hn _ => exact absurd hn (known hm)
    | missing _ _ _ hn => exact absurd (hn name rfl) (known hm)
  | hinted name v more o conv hm ht hv he =>
    cases h' with
    | badValue _ _ _ o' _ hm' _ _ he' => rw [means hm hm'] at he; exact absurd he' he
    | hinted _ _ _ o' _ hm' => rw [means hm hm']
    | tooMany _ _ hn _ => exact absurd hn (known hm)
    | missing _ _ _ hn => exact absurd (hn name rfl) (known hm)
  | tooMany a more hn hl =>
    cases h' with
    | noValue _ _ _ hm => exact absurd hn (known hm)
    | badValue _ _ _ _ _ hm => exact absurd hn (known hm)
    | hinted _ _ _ _ _ hm => exact absurd hn (known hm)
    | tooMany => rfl
    | missing _ p i _ hi hp =>
      have := (List.getElem?_eq_some_iff.mp hp).1
      omega
  | missing _ p i hn hi hp ho hall =>
    cases h' with
    | noValue name _ _ hm => exact absurd (hn name rfl) (known hm)
    | badValue name _ _ _ _ hm => exact absurd (hn name rfl) (known hm)
    | hinted name _ _ _ _ hm => exact absurd (hn name rfl) (known hm)
    | tooMany _ _ _ hl =>
      have := (List.getElem?_eq_some_iff.mp hp).1
      omega
    | missing _ p' i' _ hi' hp' ho' hall' =>
      rcases Nat.lt_trichotomy i i' with hl | rfl | hl
      · rw [hall' i p hi hl hp] at ho; cases ho
      · rw [hp] at hp'; rw [Option.some.inj hp']
      · rw [hall i' p' hi' hl hp'] at ho'; cases ho'

theorem foldl_max (opts : List (Opt × Bytes)) : ∀ w, w ≤ opts.foldl (fun w o => max w o.1.docName.length) w ∧
    (∀ o ∈ opts, o.1.docName.length ≤ opts.foldl (fun w o => max w o.1.docName.length) w) := by
  induction opts with
  | nil => intro w; exact ⟨Nat.le_refl _, nofun⟩
  | cons x xs ih =>
    intro w
    obtain ⟨h1, h2⟩ := ih (max w x.1.docName.length)
    refine ⟨by simp only [List.foldl_cons]; omega, ?_⟩
    intro o ho
    rcases List.mem_cons.mp ho with rfl | ho
    · simp only [List.foldl_cons]; omega
    · exact h2 o ho

/-- C95: the help has a line with the program's name and the positional arguments, and then a line for each option, in order, with all its names and its text; the texts
begin in the same column. -/
theorem C95_help (name : Bytes) (opts : List (Opt × Bytes)) (poss : List Pos) :
    ∃ (column : Nat) (lines : List Bytes), argHelp name opts poss = ascii "Usage: " ++ name ++ (if opts = [] then [] else ascii " [options]") ++
        (poss.map (fun p => ascii " " ++ place p)).flatten ++ [10] ++ lines.flatten ∧
      All2 (fun o line => helpLine column o.1 o.2 line) opts lines := by
  have hw := (foldl_max opts 0).2
  generalize hg : opts.foldl (fun w o => max w o.1.docName.length) 0 = w at hw
  refine ⟨6 + w, opts.map (fun o => ascii "  " ++ setwLeft w o.1.docName ++ ascii "    " ++ o.2 ++ [10]), ?_, ?_⟩
  · unfold argHelp argHelpRest
    rw [hg]
    simp only [List.isEmpty_iff, List.append_assoc, List.flatMap_def]
    rfl
  · clear hg
    induction opts with
    | nil => exact .nil
    | cons o opts ih =>
      refine .cons ⟨List.replicate (w - o.1.docName.length) 32 ++ ascii "    ", ?_, ?_, ?_, ?_⟩ (ih (fun x hx => hw x (List.mem_cons_of_mem _ hx)))
      · simp only [setwLeft, label_eq, List.append_assoc]
      · intro c hc
        rcases List.mem_append.mp hc with hc | hc
        · exact (List.mem_replicate.mp hc).2
        · have : ascii "    " = [32, 32, 32, 32] := by decide
          rw [this] at hc
          simpa using hc
      · have : (ascii "    ").length = 4 := by decide
        simp [this]
      · have h4 : (ascii "    ").length = 4 := by decide
        have h2 : (ascii "  ").length = 2 := by decide
        have := hw o List.mem_cons_self
        rw [label_eq] at this ⊢
        simp only [List.length_append, List.length_replicate, h4, h2]
        omega

/-- C95: with sub-commands, the help is that of the sub-command that is named, and that of all of them, in order, if none is. -/
theorem C95_subcommands (name : Bytes) (subs : List (Bytes × List (Opt × Bytes) × List Pos)) (hn : (subs.map (·.1)).Nodup) (sub : Bytes) :
    (∀ opts poss, (sub, opts, poss) ∈ subs → ∃ block, argHelp (name ++ ascii " " ++ sub) opts poss = ascii "Usage: " ++ block ∧
      subArgHelp name subs sub = ascii "Usage: " ++ name ++ ascii " <sub-command> [options]\n\n" ++ block ++ [10]) ∧
    ((∀ s ∈ subs, s.1 ≠ sub) → ∃ blocks : List Bytes, All2 (fun s block => argHelp (name ++ ascii " " ++ s.1) s.2.1 s.2.2 = ascii "Usage: " ++ block) subs blocks ∧
      subArgHelp name subs sub = ascii "Usage: " ++ name ++ ascii " <sub-command> [options]\n\n" ++ (blocks.map (· ++ [10])).flatten) := by
  have he : ascii " <sub-command> [options]\n\n" = ascii " <sub-command> [options]" ++ [10, 10] := by decide
  constructor
  · intro opts poss hm
    have hf : subs.find? (fun s => s.1 == sub) = some (sub, opts, poss) := by
      induction subs with
      | nil => cases hm
      | cons s subs ih =>
        rw [List.map_cons, List.nodup_cons] at hn
        rcases List.mem_cons.mp hm with rfl | hm
        · simp
        · have hne : s.1 ≠ sub := fun h => hn.1 (h ▸ List.mem_map_of_mem (f := (·.1)) hm)
          rw [List.find?_cons_of_neg (by simpa using hne)]
          exact ih hn.2 hm
    refine ⟨_, by unfold argHelp; rw [List.append_assoc], ?_⟩
    unfold subArgHelp
    rw [hf, he]
    simp only [List.append_assoc]
  · intro hno
    refine ⟨subs.map (fun s => name ++ ascii " " ++ s.1 ++ argHelpRest s.2.1 s.2.2), ?_, ?_⟩
    · clear hn hno
      induction subs with
      | nil => exact .nil
      | cons s subs ih => exact .cons (by unfold argHelp; rw [List.append_assoc]) ih
    · have hf : subs.find? (fun s => s.1 == sub) = none := List.find?_eq_none.mpr (fun s hs => by simpa using hno s hs)
      unfold subArgHelp
      rw [hf, he]
      simp only [List.append_assoc, List.flatMap_def, List.map_map, Function.comp_def]

/-- C95 is false of the word that is called unknown: with an option after the positional arguments it is the first of these, and not the one that is too much. -/
theorem C95_culprit_false : ¬ C95_culprit := by
  intro h
  have h := h [intOpt [ascii "--head"]] [⟨ascii "in", false⟩, ⟨ascii "out", false⟩] [ascii "a", ascii "b", ascii "--head", ascii "3"] []
    [ascii "a", ascii "b", ascii "--head", ascii "3"] (ascii "a") rfl nofun
    (by intro a ha o ho; cases ha; simp only [List.mem_cons, List.not_mem_nil, or_false] at ho; subst ho; decide +kernel) (by decide +kernel)
  exact h (by decide +kernel)

/-! ## Examples -/

example : (getArgs [intOpt [ascii "-r", ascii "--res"]] [⟨ascii "in", false⟩] [ascii "-r", ascii "x", ascii "a"]).success = false ∧
    (getArgs [intOpt [ascii "-r", ascii "--res"]] [⟨ascii "in", false⟩] [ascii "-r", ascii "x", ascii "a"]).errMsg = ascii "Bad value for -r, --res <int> (x)" := by
  decide +kernel

example : Fault [intOpt [ascii "-r", ascii "--res"]] [⟨ascii "in", false⟩] [ascii "-r", ascii "x"] (ascii "Bad value for " ++ label (intOpt [ascii "-r", ascii "--res"]) ++ ascii " (" ++ ascii "x" ++ ascii ")") :=
  .badValue (ascii "-r") (ascii "x") [] _ _ ⟨0, rfl, by decide +kernel, by intro j o' hj; omega⟩ rfl (by decide +kernel) rfl

example : argHelp (ascii "bsplit") [(boolOpt [ascii "-h"], ascii "Help"), (intOpt [ascii "--head"], ascii "Bytes")] [⟨ascii "in", false⟩, ⟨ascii "out", true⟩] =
    ascii "Usage: bsplit [options] <in> [out]\n  -h              Help\n  --head <int>    Bytes\n" := by decide +kernel

example : (([(ascii "info", [], []), (ascii "print", [(boolOpt [ascii "-h"], ascii "Help")], [⟨ascii "file", false⟩])] :
      List (Bytes × List (Opt × Bytes) × List Pos)).map (·.1)).Nodup ∧
    subArgHelp (ascii "x") [(ascii "info", [], []), (ascii "print", [(boolOpt [ascii "-h"], ascii "Help")], [⟨ascii "file", false⟩])] [] =
      ascii "Usage: x <sub-command> [options]\n\nx info\n\nx print [options] <file>\n  -h    Help\n\n" := by decide +kernel

end Verif.Tools
