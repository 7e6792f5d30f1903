import Verif.Client.Model
import Verif.Tools.ArgsProps
import Verif.Printer.ManageProps

/-!
# Property C73: the command line of ippclient
-/

namespace Verif.Client

open Ipp Job Printer Printer.Spec Tools Tools.Spec
open Ipp.Spec (InInt32)

/-! ## Specification -/

namespace Spec

/-- The last use of an option under one of these names. -/
def lastUse (uses : List Use) (names : List Bytes) : Option Use :=
  (uses.filter (fun u => names.any (fun n => u.words.head? == some n))).getLast?

/-- The word that follows the name in it. -/
def word (uses : List Use) (names : List Bytes) : Option Bytes := (lastUse uses names).bind (fun u => u.words[1]?)

/-- The documented options with a text, by their names. -/
def textOptions : List (List Bytes × (Options → Option Bytes)) :=
  [([ascii "-p", ascii "--pages"], (·.pages)), ([ascii "--paper-size"], (·.paperSize)), ([ascii "-s", ascii "--sides"], (·.sides)),
   ([ascii "-c", ascii "--color-mode"], (·.colorMode)), ([ascii "--scaling"], (·.scaling)), ([ascii "--format"], (·.format)),
   ([ascii "--mime-type"], (·.mimeType)), ([ascii "--media-type"], (·.mediaType)), ([ascii "--media-source"], (·.mediaSource)),
   ([ascii "--output-bin"], (·.outputBin))]

/-- The documented options with a number. -/
def intOptions : List (List Bytes × (Options → Option Int)) :=
  [([ascii "--copies"], (·.copies)), ([ascii "--finishings"], (·.finishing)), ([ascii "-m", ascii "--margin"], (·.margin)),
   ([ascii "-tm", ascii "--top-margin"], (·.topMargin)), ([ascii "-bm", ascii "--bottom-margin"], (·.bottomMargin)),
   ([ascii "-lm", ascii "--left-margin"], (·.leftMargin)), ([ascii "-rm", ascii "--right-margin"], (·.rightMargin))]

/-- The documented options with a resolution. -/
def resolutionOptions : List (List Bytes × (Options → Option UInt32)) :=
  [([ascii "-r", ascii "--resolution"], (·.hwRes)), ([ascii "-rx", ascii "--resolution-x"], (·.hwResX)),
   ([ascii "-ry", ascii "--resolution-y"], (·.hwResY))]

/-- The documented switches. -/
def switches : List (List Bytes × (Options → Bool)) :=
  [([ascii "-f", ascii "--force"], (·.force)), ([ascii "--one-stage"], (·.oneStage)), ([ascii "--print-job-id"], (·.printJobId)), ([ascii "--save"], (·.save))]

/-- The options are as the uses say. -/
structure Matches (uses : List Use) (o : Options) : Prop where
  texts : ∀ e ∈ textOptions, e.2 o = word uses e.1
  ints : ∀ e ∈ intOptions, (lastUse uses e.1 = none → e.2 o = none) ∧
    ∀ i, InInt32 i → word uses e.1 = some (intText i) → e.2 o = some i
  resolutions : ∀ e ∈ resolutionOptions, (lastUse uses e.1 = none → e.2 o = none) ∧
    ∀ n : UInt32, word uses e.1 = some (dec n.toNat) → e.2 o = some n
  switches : ∀ e ∈ switches, e.2 o = (lastUse uses e.1).isSome
  collated : o.collatedCopies = (word uses [ascii "--collated-copies"]).bind (fun w =>
    if w = ascii "yes" then some (ascii "separate-documents-collated-copies")
    else if w = ascii "no" then some (ascii "separate-documents-uncollated-copies") else none)
  quality : o.quality = (word uses [ascii "-q", ascii "--quality"]).bind (fun w =>
    if w = ascii "draft" then some 3 else if w = ascii "normal" then some 4 else if w = ascii "high" then some 5 else none)

/-- What ippclient does with every accepted command line: it asks for the printer's attributes, ends with 1 if that fails (an unreachable printer, an
unreadable reply), and goes on with the printer otherwise. -/
def afterAttrs (w : World) (addr : Bytes) (f : Printer → Act End) : Act End := do
  let (e, p) ← construct w.files w.env.reqId addr w.user w.attrsReply
  match e with
  | some _ => return { code := 1, store := w.store }
  | none => f p

end Spec

open Spec

/-! ## Proofs -/

theorem subArgs_of {sub : Bytes} {opts : List Opt} {poss : List Pos} (h : (sub, opts, poss) ∈ commands) (rest : List Bytes) :
    getSubArgs commands (sub :: rest) = .inr (sub, getArgs opts poss rest) := by
  unfold getSubArgs
  have h1 : ∀ e ∈ commands, (commands.reverse.find? (fun s => s.1 == e.1)).map (fun s => (s.1, s.2.1.map (·.names), s.2.2)) =
    some (e.1, e.2.1.map (·.names), e.2.2) := by decide +kernel
  simp only [commands, List.mem_cons, List.not_mem_nil, or_false, Prod.mk.injEq] at h
  rcases h with ⟨rfl, rfl, rfl⟩ | ⟨rfl, rfl, rfl⟩ | ⟨rfl, rfl, rfl⟩ | ⟨rfl, rfl, rfl⟩ | ⟨rfl, rfl, rfl⟩ | ⟨rfl, rfl, rfl⟩ | ⟨rfl, rfl, rfl⟩ <;> rfl

theorem subArgs_cases (args : List Bytes) :
    (∃ e, getSubArgs commands args = .inl e) ∨
    ∃ sub opts poss rest, args = sub :: rest ∧ (sub, opts, poss) ∈ commands ∧
      getSubArgs commands args = .inr (sub, getArgs opts poss rest) := by
  unfold getSubArgs
  cases args with
  | nil => exact .inl ⟨_, rfl⟩
  | cons sub rest =>
    cases hf : commands.reverse.find? (fun s => s.1 == sub) with
    | none => exact .inl ⟨ascii "Invalid sub-command", by simp only [hf]⟩
    | some s =>
      obtain ⟨n, opts, poss⟩ := s
      have hn : n = sub := by simpa using List.find?_some hf
      subst hn
      exact .inr ⟨n, opts, poss, rest, rfl, List.mem_reverse.mp (List.mem_of_find?_eq_some hf), by simp only [hf]⟩

/-- No two options have a name in common. -/
def Disjoint (opts : List Opt) : Prop := ∀ (i j : Nat) (o o' : Opt), i ≠ j → opts[i]? = some o → opts[j]? = some o' → ∀ n ∈ o.names, n ∉ o'.names

theorem disjoint_of {opts : List Opt} (h : (opts.map (·.names)).flatten.Nodup) : Disjoint opts := by
  intro i j o o' hij hi hj n hn hn'
  rw [List.nodup_flatten] at h
  have h2 := h.2
  rw [List.pairwise_iff_getElem] at h2
  obtain ⟨hi1, hi2⟩ := List.getElem?_eq_some_iff.mp hi
  obtain ⟨hj1, hj2⟩ := List.getElem?_eq_some_iff.mp hj
  rcases Nat.lt_or_gt_of_ne hij with hlt | hlt
  · have := h2 i j (by simpa using hi1) (by simpa using hj1) hlt
    simp only [List.getElem_map, hi2, hj2] at this
    exact this hn hn'
  · have := h2 j i (by simpa using hj1) (by simpa using hi1) hlt
    simp only [List.getElem_map, hi2, hj2] at this
    exact this hn' hn

theorem use_iff {opts : List Opt} (hd : Disjoint opts) {u : Use} (hu : IsUse opts u) {i : Nat} {o : Opt} (hi : opts[i]? = some o) :
    (u.option == i) = (o.names.any (fun n => u.words.head? == some n)) := by
  obtain ⟨o', name, h1, h2, _, h3⟩ := hu
  have hh : u.words.head? = some name := by
    rcases h3 with ⟨_, h, _⟩ | ⟨_, _, _, h, _⟩ <;> rw [h] <;> rfl
  rw [hh, Bool.eq_iff_iff]
  simp only [beq_iff_eq, List.any_eq_true, Option.some.injEq]
  constructor
  · rintro rfl
    rw [hi] at h1; cases h1
    exact ⟨name, h2, rfl⟩
  · rintro ⟨n, hn, rfl⟩
    refine Classical.byContradiction fun hne => ?_
    exact hd _ _ _ _ hne h1 hi name h2 hn

theorem lastValue_eq {opts : List Opt} (hd : Disjoint opts) {uses : List Use} (hu : ∀ u ∈ uses, IsUse opts u) {i : Nat} {o : Opt}
    (hi : opts[i]? = some o) : lastValue uses i = (lastUse uses o.names).map (·.value) := by
  unfold lastValue lastUse
  rw [List.getLast?_map]
  congr 2
  apply List.filter_congr
  intro u hm
  rw [use_iff hd (hu u hm) hi]

theorem lastUse_mem {uses : List Use} {names : List Bytes} {u : Use} (h : lastUse uses names = some u) :
    u ∈ uses ∧ ∃ n ∈ names, u.words.head? = some n := by
  have := List.mem_of_getLast? h
  rw [List.mem_filter] at this
  refine ⟨this.1, ?_⟩
  simpa using this.2

/-- What the last use of an option with a value is. -/
theorem value_cases {opts : List Opt} (hd : Disjoint opts) {uses : List Use} (hu : ∀ u ∈ uses, IsUse opts u) {i : Nat} {o : Opt}
    (hi : opts[i]? = some o) {conv : Bytes → Option Val} (ht : o.takes = some conv) :
    (lastUse uses o.names = none ∧ word uses o.names = none ∧ lastValue uses i = none) ∨
    ∃ w v, lastUse uses o.names ≠ none ∧ word uses o.names = some w ∧ conv w = some v ∧ lastValue uses i = some v := by
  rw [lastValue_eq hd hu hi]
  unfold word
  cases hl : lastUse uses o.names with
  | none => exact .inl ⟨rfl, rfl, rfl⟩
  | some u =>
    obtain ⟨hm, n, hn, hh⟩ := lastUse_mem hl
    obtain ⟨o', name, h1, h2, h3, h4⟩ := hu u hm
    have he : u.option = i := by
      have := use_iff hd (hu u hm) hi
      rw [Bool.eq_iff_iff] at this
      have := this.mpr (by simp only [List.any_eq_true, beq_iff_eq]; exact ⟨n, hn, hh⟩)
      simpa using this
    rw [he, hi] at h1; cases h1
    rcases h4 with ⟨h5, _⟩ | ⟨c, w, h5, h6, h7⟩
    · rw [ht] at h5; cases h5
    · rw [ht] at h5; cases h5
      exact .inr ⟨w, u.value, by simp, by simp [h6], h7, rfl⟩

theorem text_eq {opts : List Opt} (hd : Disjoint opts) {uses : List Use} (hu : ∀ u ∈ uses, IsUse opts u) {i : Nat} {names : List Bytes}
    (hi : opts[i]? = some (textOpt names)) : textOf (lastValue uses i) = word uses names := by
  rcases value_cases hd hu hi rfl with ⟨_, h2, h3⟩ | ⟨w, v, _, h2, h3, h4⟩
  · rw [h3]; exact h2.symm
  · rw [h4, show word uses names = some w from h2]
    cases h3; rfl

theorem int_eq {opts : List Opt} (hd : Disjoint opts) {uses : List Use} (hu : ∀ u ∈ uses, IsUse opts u) {i : Nat} {names : List Bytes}
    (hi : opts[i]? = some (intOpt names)) : (lastUse uses names = none → numOf (lastValue uses i) = none) ∧
      numOf (lastValue uses i) = (word uses names).bind stoi := by
  rcases value_cases hd hu hi rfl with ⟨_, h2, h3⟩ | ⟨w, v, h1, h2, h3, h4⟩
  · rw [h3, show word uses names = none from h2]
    exact ⟨fun _ => rfl, rfl⟩
  · rw [h4, show word uses names = some w from h2]
    refine ⟨fun h => absurd h h1, ?_⟩
    simp only [Option.map_eq_some_iff] at h3
    obtain ⟨a, h5, rfl⟩ := h3
    exact h5.symm

theorem stoul_text {n : Nat} (h : n < 18446744073709551616) : stoulSigned (dec n) = some n := by
  have hd := dec_digits n
  cases hk : dec n with
  | nil => exact absurd hk (dec_ne_nil n)
  | cons b bs =>
    obtain ⟨h1, h2, h3⟩ := digit_facts b (hd b (by rw [hk]; exact List.mem_cons_self))
    unfold stoulSigned
    have e1 : List.dropWhile isSpace (b :: bs) = b :: bs := by rw [List.dropWhile_cons, if_neg (by simp [h1])]
    have hv : digitsVal (b :: bs) = n := by rw [← hk, digitsVal_dec]
    have tk : List.takeWhile isDigit (b :: bs) = b :: bs := Tools.takeWhile_all (by rw [← hk]; exact hd)
    simp [e1, h2, h3, tk, hv]
    omega

theorem uint_eq {opts : List Opt} (hd : Disjoint opts) {uses : List Use} (hu : ∀ u ∈ uses, IsUse opts u) {i : Nat} {names : List Bytes}
    (hi : opts[i]? = some (uintOpt names)) : (lastUse uses names = none → wordOf (lastValue uses i) = none) ∧
      ∀ n : UInt32, word uses names = some (dec n.toNat) → wordOf (lastValue uses i) = some n := by
  rcases value_cases hd hu hi rfl with ⟨_, h2, h3⟩ | ⟨w, v, h1, h2, h3, h4⟩
  · rw [h3]
    refine ⟨fun _ => rfl, fun n hn => ?_⟩
    rw [show word uses names = none from h2] at hn; cases hn
  · refine ⟨fun h => absurd h h1, fun n hn => ?_⟩
    rw [show word uses names = some w from h2] at hn
    cases hn
    have hlt : n.toNat < 4294967296 := n.toNat_lt
    rw [stoul_text (by omega)] at h3
    cases h3
    rw [h4]
    simp only [wordOf, numOf, Option.map_some, Option.some.injEq]
    rw [Nat.mod_eq_of_lt hlt]
    simp

theorem switch_eq {opts : List Opt} (hd : Disjoint opts) {uses : List Use} (hu : ∀ u ∈ uses, IsUse opts u) {i : Nat} {names : List Bytes}
    (hi : opts[i]? = some (boolOpt names)) : (lastValue uses i).isSome = (lastUse uses names).isSome := by
  rw [lastValue_eq hd hu hi]
  simp [boolOpt]

theorem enum_eq {opts : List Opt} (hd : Disjoint opts) {uses : List Use} (hu : ∀ u ∈ uses, IsUse opts u) {i : Nat} {names values : List Bytes}
    (hi : opts[i]? = some (enumOpt names values)) {α : Type} (l : List α) :
    choiceOf l (lastValue uses i) = (word uses names).bind (fun w => (values.idxOf? w).bind (fun k => l[k]?)) := by
  rcases value_cases hd hu hi rfl with ⟨_, h2, h3⟩ | ⟨w, v, h1, h2, h3, h4⟩
  · rw [h3, show word uses names = none from h2]; rfl
  · rw [h4, show word uses names = some w from h2]
    simp only [Option.map_eq_some_iff] at h3
    obtain ⟨k, h5, rfl⟩ := h3
    simp [h5, choiceOf]

theorem print_disjoint : Disjoint printOpts := disjoint_of (by decide +kernel)

theorem matches_of {uses : List Use} (hu : ∀ u ∈ uses, IsUse printOpts u) : Matches uses (Options.of (lastValue uses)) := by
  have hd := print_disjoint
  constructor
  · intro e he
    simp only [textOptions, List.mem_cons, List.not_mem_nil, or_false] at he
    rcases he with rfl | rfl | rfl | rfl | rfl | rfl | rfl | rfl | rfl | rfl <;> exact text_eq hd hu rfl
  · intro e he
    have one : ∀ {i : Nat} {names : List Bytes}, printOpts[i]? = some (intOpt names) →
        (lastUse uses names = none → numOf (lastValue uses i) = none) ∧
        ∀ k, InInt32 k → word uses names = some (intText k) → numOf (lastValue uses i) = some k := by
      intro i names hi
      refine ⟨(int_eq hd hu hi).1, fun k hk hw => ?_⟩
      rw [(int_eq hd hu hi).2, hw]
      exact stoi_intText hk
    simp only [intOptions, List.mem_cons, List.not_mem_nil, or_false] at he
    rcases he with rfl | rfl | rfl | rfl | rfl | rfl | rfl <;> exact one rfl
  · intro e he
    simp only [resolutionOptions, List.mem_cons, List.not_mem_nil, or_false] at he
    rcases he with rfl | rfl | rfl <;> exact uint_eq hd hu rfl
  · intro e he
    simp only [switches, List.mem_cons, List.not_mem_nil, or_false] at he
    rcases he with rfl | rfl | rfl | rfl <;> exact switch_eq hd hu rfl
  · show choiceOf _ (lastValue uses 6) = _
    rw [enum_eq hd hu (i := 6) (names := [ascii "--collated-copies"]) (values := [ascii "yes", ascii "no"]) rfl]
    congr 1
    funext w
    by_cases h1 : w = ascii "yes"
    · subst h1; decide +kernel
    · by_cases h2 : w = ascii "no"
      · subst h2; decide +kernel
      · rw [if_neg h1, if_neg h2]
        have : List.idxOf? w [ascii "yes", ascii "no"] = none := by simp [h1, h2]
        rw [this]; rfl
  · show choiceOf _ (lastValue uses 13) = _
    rw [enum_eq hd hu (i := 13) (names := [ascii "-q", ascii "--quality"]) (values := [ascii "draft", ascii "normal", ascii "high"]) rfl]
    congr 1
    funext w
    by_cases h1 : w = ascii "draft"
    · subst h1; decide +kernel
    · by_cases h2 : w = ascii "normal"
      · subst h2; decide +kernel
      · by_cases h3 : w = ascii "high"
        · subst h3; decide +kernel
        · rw [if_neg h1, if_neg h2, if_neg h3]
          have : List.idxOf? w [ascii "draft", ascii "normal", ascii "high"] = none := by simp [h1, h2, h3]
          rw [this]; rfl

theorem command_opts {sub : Bytes} {opts : List Opt} {poss : List Pos} (hc : (sub, opts, poss) ∈ commands) :
    Disjoint opts ∧ opts[0]? = some helpOpt := by
  simp only [commands, List.mem_cons, List.not_mem_nil, or_false, Prod.mk.injEq] at hc
  rcases hc with ⟨_, rfl, _⟩ | ⟨_, rfl, _⟩ | ⟨_, rfl, _⟩ | ⟨_, rfl, _⟩ | ⟨_, rfl, _⟩ | ⟨_, rfl, _⟩ | ⟨_, rfl, _⟩ <;>
    exact ⟨disjoint_of (by decide +kernel), rfl⟩

/-- The values when the loop over the options ends, either way. -/
def loopVals : Loop → Vals
  | .failed _ v => v
  | .done _ v => v

theorem options_set {opts : List Opt} {args : List Bytes} {vals : Vals} {i : Nat} (h : (loopVals (options opts args vals) i).isSome = true) :
    (vals i).isSome = true ∨ ∃ n, (∃ o, opts[i]? = some o ∧ n ∈ o.names) ∧ n ∈ args := by
  have step : ∀ {vals : Vals} {k : Nat} {x : Val} {o : Opt} {name : Bytes} {as : List Bytes}, first opts 0 name = some (k, o) → name ∈ as →
      ((vals.set k x) i).isSome = true → (vals i).isSome = true ∨ ∃ n, (∃ o, opts[i]? = some o ∧ n ∈ o.names) ∧ n ∈ as := by
    intro vals k x o name as hf hm hs
    by_cases hk : i = k
    · subst hk
      obtain ⟨_, h1, h2, _⟩ := first_some hf
      exact .inr ⟨name, ⟨o, h1, h2⟩, hm⟩
    · rw [Vals.set, if_neg hk] at hs
      exact .inl hs
  fun_induction options opts args vals with
  | case1 => exact .inl h
  | case2 => exact .inl h
  | case3 name rest vals k o hf ht ih =>
    rcases ih h with h1 | ⟨n, h1, h2⟩
    · exact step hf List.mem_cons_self h1
    · exact .inr ⟨n, h1, List.mem_cons_of_mem _ h2⟩
  | case4 => exact .inl h
  | case5 name vals k o hf conv ht v rest x hx ih =>
    rcases ih h with h1 | ⟨n, h1, h2⟩
    · exact step hf List.mem_cons_self h1
    · exact .inr ⟨n, h1, List.mem_cons_of_mem _ (List.mem_cons_of_mem _ h2)⟩
  | case6 => exact .inl h

theorem getArgs_set {opts : List Opt} {poss : List Pos} {args : List Bytes} {i : Nat} (h : ((getArgs opts poss args).vals i).isSome = true) :
    ∃ n, (∃ o, opts[i]? = some o ∧ n ∈ o.names) ∧ n ∈ args := by
  have : (getArgs opts poss args).vals = loopVals (options opts args (fun _ => none)) := by
    unfold getArgs
    cases options opts args (fun _ => none) with
    | failed e v => rfl
    | done r v =>
      simp only
      split
      · rfl
      · split <;> rfl
  rw [this] at h
  rcases options_set h with h | h
  · cases h
  · exact h

theorem main_of {w : World} {sub : Bytes} {opts : List Opt} {poss : List Pos} {rest : List Bytes} {uses : List Use} {pos : List Bytes}
    (hc : (sub, opts, poss) ∈ commands) (ha : Accounts opts poss rest uses pos) (hh : lastUse uses helpOpt.names = none) :
    ∃ r, r.positional = pos ∧ (∀ i, r.vals i = lastValue uses i) ∧
      main w (sub :: rest) = afterAttrs w (pos.getD 0 []) (fun p => command w p sub r) := by
  obtain ⟨h1, h2, h3⟩ := C45_complete ha
  refine ⟨getArgs opts poss rest, h3, h2, ?_⟩
  have hd := command_opts hc
  have h0 : ((getArgs opts poss rest).vals 0).isSome = false := by
    rw [h2, lastValue_eq hd.1 ha.uses hd.2, hh]; rfl
  unfold main
  rw [subArgs_of hc]
  simp only [h0, h1]
  simp only [Bool.false_eq_true, if_false, if_true]
  unfold withPrinter afterAttrs
  rw [h3]
  rfl

/-- C73: a command line of `print` that consists of uses of its options (not of the help), an address and a file prints the file on the printer,
with the options that the last uses under their documented names give. -/
theorem C73_print (w : World) (args : List Bytes) (uses : List Use) (addr file : Bytes)
    (ha : Accounts printOpts [addrArg, pdfArg] args uses [addr, file]) (hh : lastUse uses [ascii "-h", ascii "--help"] = none) :
    ∃ o, Matches uses o ∧ main w (ascii "print" :: args) = afterAttrs w addr (fun p => printCommand w p o file) := by
  obtain ⟨r, h1, h2, h3⟩ := main_of (w := w) (sub := ascii "print") (by simp [commands]) ha hh
  have he : r.vals = lastValue uses := funext h2
  refine ⟨Options.of (lastValue uses), matches_of ha.uses, ?_⟩
  rw [h3]
  congr 1
  funext p
  have hsub : command w p (ascii "print") r = printCommand w p (Options.of r.vals) (r.positional.getD 1 []) := by
    unfold command
    rw [if_neg (by decide +kernel), if_neg (by decide +kernel), if_neg (by decide +kernel), if_neg (by decide +kernel), if_neg (by decide +kernel),
      if_neg (by decide +kernel), if_pos rfl]
  rw [hsub, he, h1]
  rfl

/-- C73: every other command line, that is none of the sub-commands with options of its own and the right number of further arguments, sends nothing,
leaves the saved settings alone and ends with 1, or with 0 when there is a request for help in it. -/
theorem C73_rejects (w : World) (args : List Bytes)
    (h : ∀ sub opts poss rest uses pos, args = sub :: rest → (sub, opts, poss) ∈ commands → ¬ Accounts opts poss rest uses pos) :
    (main w args).events = [] ∧ ∃ e, (main w args).out = .ok e ∧ e.store = w.store ∧
      (e.code = 1 ∨ (e.code = 0 ∧ (ascii "-h" ∈ args ∨ ascii "--help" ∈ args))) := by
  unfold main
  rcases subArgs_cases args with ⟨e, he⟩ | ⟨sub, opts, poss, rest, h1, h2, h3⟩
  · rw [he]
    exact ⟨rfl, _, rfl, rfl, .inl rfl⟩
  · rw [h3]
    simp only
    have hns : (getArgs opts poss rest).success = false := by
      cases hs : (getArgs opts poss rest).success with
      | false => rfl
      | true =>
        obtain ⟨uses, pos, ha, _⟩ := C45_sound hs
        exact absurd ha (h sub opts poss rest uses pos h1 h2)
    rw [hns]
    cases hv : ((getArgs opts poss rest).vals 0).isSome with
    | false => exact ⟨rfl, _, rfl, rfl, .inl rfl⟩
    | true =>
      refine ⟨rfl, _, rfl, rfl, .inr ⟨rfl, ?_⟩⟩
      have h0 : opts[0]? = some helpOpt := (command_opts h2).2
      obtain ⟨n, hn, hm⟩ := getArgs_set hv
      rw [h0] at hn
      obtain ⟨o, ho, hno⟩ := hn
      cases ho
      subst h1
      simp only [helpOpt, boolOpt, List.mem_cons, List.not_mem_nil, or_false] at hno
      rcases hno with rfl | rfl
      · exact .inl (List.mem_cons_of_mem _ hm)
      · exact .inr (List.mem_cons_of_mem _ hm)

/-- C73: with a use of the help option, the help is shown (not modelled), nothing is sent and the end is 0. -/
theorem C73_help (w : World) {sub : Bytes} {opts : List Opt} {poss : List Pos} {rest : List Bytes} {uses : List Use} {pos : List Bytes}
    (hc : (sub, opts, poss) ∈ commands) (ha : Accounts opts poss rest uses pos) (hh : lastUse uses [ascii "-h", ascii "--help"] ≠ none) :
    main w (sub :: rest) = pure { code := 0, store := w.store, shown := .nothing } := by
  obtain ⟨h1, h2, h3⟩ := C45_complete ha
  have hd := command_opts hc
  have h0 : ((getArgs opts poss rest).vals 0).isSome = true := by
    rw [h2, lastValue_eq hd.1 ha.uses hd.2]
    cases hl : lastUse uses helpOpt.names with
    | none => exact absurd hl hh
    | some u => rfl
  unfold main
  rw [subArgs_of hc]
  simp only [h0]
  rfl

/-- An account of some words, by trying the options in order; for the examples. -/
theorem isUse_of {opts : List Opt} {u : Use} {name w : Bytes} {i : Nat} {o : Opt} {conv : Bytes → Option Val} (hf : first opts 0 name = some (i, o))
    (ht : o.takes = some conv) (h1 : u.option = i) (h2 : u.words = [name, w]) (h3 : conv w = some u.value) : IsUse opts u := by
  obtain ⟨_, g1, g2, g3⟩ := first_some hf
  subst h1
  exact ⟨o, name, g1, g2, g3, .inr ⟨conv, w, ht, h2, h3⟩⟩

theorem isUse_of_switch {opts : List Opt} {u : Use} {name : Bytes} {i : Nat} {o : Opt} (hf : first opts 0 name = some (i, o))
    (ht : o.takes = none) (h1 : u.option = i) (h2 : u.words = [name]) (h3 : u.value = .flag) : IsUse opts u := by
  obtain ⟨_, g1, g2, g3⟩ := first_some hf
  subst h1
  exact ⟨o, name, g1, g2, g3, .inl ⟨ht, h2, h3⟩⟩

/-- a use of `--copies` with a text that only starts with a number -/
def copiesUse : Use := { option := 5, words := [ascii "--copies", ascii "3x"], value := .num 3 }

/-- a use of `-r` with a number that has more than 32 bits -/
def resolutionUse : Use := { option := 8, words := [ascii "-r", ascii "4294967896"], value := .num 600 }

/-- a use of `-c` -/
def colorUse : Use := { option := 12, words := [ascii "-c", ascii "monochrome"], value := .text (ascii "monochrome") }

/-- a use of `-f` -/
def forceUse : Use := { option := 2, words := [ascii "-f"], value := .flag }

theorem sample_accounts : Accounts printOpts [addrArg, pdfArg]
    [ascii "--copies", ascii "3x", ascii "-r", ascii "4294967896", ascii "-c", ascii "monochrome", ascii "-f", ascii "ipp://p/ipp", ascii "a.pdf"]
    [copiesUse, resolutionUse, colorUse, forceUse] [ascii "ipp://p/ipp", ascii "a.pdf"] := by
  refine ⟨by decide +kernel, ?_, ?_, ?_, by decide +kernel⟩
  · intro u hu
    simp only [List.mem_cons, List.not_mem_nil, or_false] at hu
    rcases hu with rfl | rfl | rfl | rfl
    · exact isUse_of (name := ascii "--copies") (w := ascii "3x") rfl rfl rfl rfl (by decide +kernel)
    · exact isUse_of (name := ascii "-r") (w := ascii "4294967896") rfl rfl rfl rfl (by decide +kernel)
    · exact isUse_of (name := ascii "-c") (w := ascii "monochrome") rfl rfl rfl rfl (by decide +kernel)
    · exact isUse_of_switch (name := ascii "-f") rfl rfl rfl rfl rfl
  · intro a ha
    cases ha
    have : ∀ o ∈ printOpts.map (·.names), ascii "ipp://p/ipp" ∉ o := by decide +kernel
    intro o ho
    exact this o.names (List.mem_map_of_mem ho)
  · intro i p hp hi
    match i, hp, hi with
    | 0, _, hi => simp at hi
    | 1, _, hi => simp at hi
    | i + 2, hp, _ => simp at hp

/-- C73 does not hold of numbers that are not written as such: "3x" is taken as 3, and a resolution above 32 bits is cut. (The full claim would be that
the value of an option with a number is refused unless it is a decimal number in the range of its type.) -/
theorem C73_numbers_false : ∃ (args : List Bytes) (uses : List Use) (pos : List Bytes),
    Accounts printOpts [addrArg, pdfArg] args uses pos ∧ word uses [ascii "--copies"] = some (ascii "3x") ∧
    (Options.of (getArgs printOpts [addrArg, pdfArg] args).vals).copies = some 3 ∧
    word uses [ascii "-r", ascii "--resolution"] = some (ascii "4294967896") ∧
    (Options.of (getArgs printOpts [addrArg, pdfArg] args).vals).hwRes = some 600 := by
  refine ⟨_, _, _, sample_accounts, by decide +kernel, by decide +kernel, by decide +kernel, by decide +kernel⟩

/-- a command line without an address can not be accounted for -/
example : ∀ sub opts poss rest uses pos, [ascii "get-jobs", ascii "-v"] = sub :: rest → (sub, opts, poss) ∈ commands → ¬ Accounts opts poss rest uses pos := by
  rintro sub opts poss rest uses pos h1 h2 h3
  cases h1
  have h4 := (C45_complete h3).1
  simp only [commands, List.mem_cons, List.not_mem_nil, or_false, Prod.mk.injEq] at h2
  rcases h2 with ⟨h, rfl, rfl⟩ | ⟨h, rfl, rfl⟩ | ⟨h, rfl, rfl⟩ | ⟨h, rfl, rfl⟩ | ⟨h, rfl, rfl⟩ | ⟨h, rfl, rfl⟩ | ⟨h, rfl, rfl⟩ <;>
    first
    | exact absurd h (by decide +kernel)
    | exact absurd h4 (by decide +kernel)

/-- what the hypotheses of `C73_print` come to on that command line -/
example (w : World) : ∃ o, o.colorMode = some (ascii "monochrome") ∧ o.force = true ∧ o.sides = none ∧ main w (ascii "print" ::
    [ascii "--copies", ascii "3x", ascii "-r", ascii "4294967896", ascii "-c", ascii "monochrome", ascii "-f", ascii "ipp://p/ipp", ascii "a.pdf"]) =
      afterAttrs w (ascii "ipp://p/ipp") (fun p => printCommand w p o (ascii "a.pdf")) := by
  obtain ⟨o, h1, h2⟩ := C73_print w _ _ _ _ sample_accounts (by rfl)
  refine ⟨o, ?_, ?_, ?_, h2⟩
  · exact (h1.texts ([ascii "-c", ascii "--color-mode"], (·.colorMode)) (by simp [textOptions])).trans (by decide +kernel)
  · exact (h1.switches ([ascii "-f", ascii "--force"], (·.force)) (by simp [switches])).trans (by decide +kernel)
  · exact (h1.texts ([ascii "-s", ascii "--sides"], (·.sides)) (by simp [textOptions])).trans (by decide +kernel)

end Verif.Client
