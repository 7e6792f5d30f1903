import Verif.Client.LibSays

/-!
# What on a command line makes no difference (C118)

Where an option is given, under which of its names, how often before the last time, and whether the tools are to be verbose: none of it changes what they do and what
they say. (What verbose output itself looks like is not modelled.)
-/

set_option linter.unusedVariables false

namespace Verif.Client

open Ipp Job Printer Tools Tools.Spec Printer.Spec Verif.Convert Verif.Client.Spec Raster Pdf

/-! ## Specification -/

/-- The options, but for that with this name, are the same: given in both cases, the last time with the same value, or in none. -/
def Spec.SameWords (opts : List Opt) (but : Bytes) (uses uses' : List Use) : Prop :=
  ∀ o ∈ opts, but ∉ o.names → (lastUse uses o.names).map (·.words.tail) = (lastUse uses' o.names).map (·.words.tail)

/-! ## Proofs -/

/-- Two results that differ only in whether the tool is to be verbose -/
structure AlikeArgs (r r' : Result) : Prop where
  success : r.success = r'.success
  errMsg : r.errMsg = r'.errMsg
  positional : r.positional = r'.positional
  vals : ∀ i, i ≠ 1 → r.vals i = r'.vals i

theorem success_errMsg {opts : List Opt} {poss : List Pos} {args : List Bytes} (h : (getArgs opts poss args).success = true) : (getArgs opts poss args).errMsg = [] := by
  unfold getArgs at h ⊢
  split at h
  · cases h
  · split at h
    · cases h
    · rename_i hl
      rw [if_neg hl]
      split at h
      · cases h
      · rfl
      · cases h

theorem lastValue_words {opts : List Opt} (hd : Disjoint opts) {uses uses' : List Use} (hu : ∀ u ∈ uses, IsUse opts u) (hu' : ∀ u ∈ uses', IsUse opts u) {i : Nat} {o : Opt}
    (hi : opts[i]? = some o) (h : (lastUse uses o.names).map (·.words.tail) = (lastUse uses' o.names).map (·.words.tail)) : lastValue uses i = lastValue uses' i := by
  rw [lastValue_eq hd hu hi, lastValue_eq hd hu' hi]
  have key : ∀ {us : List Use} {u : Use}, (∀ u ∈ us, IsUse opts u) → lastUse us o.names = some u →
      ∃ name, (o.takes = none ∧ u.words = [name] ∧ u.value = .flag) ∨ ∃ conv w, o.takes = some conv ∧ u.words = [name, w] ∧ conv w = some u.value := by
    intro us u hus hl
    obtain ⟨hm, n, hn, hh⟩ := lastUse_mem hl
    obtain ⟨o', name, h1, h2, h3, h4⟩ := hus u hm
    have hw : u.words.head? = some name := by
      rcases h4 with ⟨_, h, _⟩ | ⟨_, _, _, h, _⟩ <;> rw [h] <;> rfl
    rw [hw] at hh
    have hh : name = n := Option.some.inj hh
    subst hh
    have : u.option = i := by
      apply Classical.byContradiction
      intro hne
      exact hd _ _ _ _ hne h1 hi _ h2 hn
    rw [this, hi] at h1
    cases h1
    exact ⟨name, h4⟩
  cases h1 : lastUse uses o.names with
  | none =>
    rw [h1] at h
    cases h2 : lastUse uses' o.names with
    | none => rfl
    | some u' => rw [h2] at h; cases h
  | some u =>
    rw [h1] at h
    cases h2 : lastUse uses' o.names with
    | none => rw [h2] at h; cases h
    | some u' =>
      rw [h2] at h
      have h : u.words.tail = u'.words.tail := Option.some.inj h
      obtain ⟨n, hn⟩ := key hu h1
      obtain ⟨n', hn'⟩ := key hu' h2
      show some u.value = some u'.value
      rcases hn with ⟨a1, a2, a3⟩ | ⟨conv, w, a1, a2, a3⟩
      · rcases hn' with ⟨b1, b2, b3⟩ | ⟨conv', w', b1, b2, b3⟩
        · rw [a3, b3]
        · rw [a1] at b1; cases b1
      · rcases hn' with ⟨b1, b2, b3⟩ | ⟨conv', w', b1, b2, b3⟩
        · rw [a1] at b1; cases b1
        · rw [a2, b2] at h
          rw [a1] at b1
          cases b1
          cases h
          rw [← a3, ← b3]

theorem lastValue_none {opts : List Opt} {uses : List Use} (hu : ∀ u ∈ uses, IsUse opts u) {i : Nat} (hi : opts[i]? = none) : lastValue uses i = none := by
  unfold lastValue
  rw [List.filter_eq_nil_iff.mpr, List.map_nil, List.getLast?_nil]
  intro u hm he
  obtain ⟨o, _, h1, _⟩ := hu u hm
  rw [eq_of_beq he, hi] at h1
  cases h1

theorem alike_of {opts : List Opt} {poss : List Pos} (hd : Disjoint opts) (hv : opts[1]? = some verboseOpt) {args args' : List Bytes} {uses uses' : List Use} {pos : List Bytes}
    (ha : Accounts opts poss args uses pos) (ha' : Accounts opts poss args' uses' pos) (hs : SameWords opts (ascii "-v") uses uses') :
    AlikeArgs (getArgs opts poss args) (getArgs opts poss args') := by
  obtain ⟨h1, h2, h3⟩ := C45_complete ha
  obtain ⟨h1', h2', h3'⟩ := C45_complete ha'
  refine ⟨by rw [h1, h1'], by rw [success_errMsg h1, success_errMsg h1'], by rw [h3, h3'], fun i hi => ?_⟩
  rw [h2, h2']
  cases ho : opts[i]? with
  | none => rw [lastValue_none ha.uses ho, lastValue_none ha'.uses ho]
  | some o =>
    exact lastValue_words hd ha.uses ha'.uses ho (hs o (List.mem_of_getElem? ho) fun hn => hd i 1 o verboseOpt hi ho hv _ hn (by decide +kernel))

/-! What is alike has the same effects. -/

theorem AlikeArgs.options {r r' : Result} (h : AlikeArgs r r') : Options.of r.vals = Options.of r'.vals := by
  unfold Options.of
  rw [h.vals 2 (by decide), h.vals 3 (by decide), h.vals 4 (by decide), h.vals 5 (by decide), h.vals 6 (by decide), h.vals 7 (by decide), h.vals 8 (by decide),
    h.vals 9 (by decide), h.vals 10 (by decide), h.vals 11 (by decide), h.vals 12 (by decide), h.vals 13 (by decide), h.vals 14 (by decide), h.vals 15 (by decide),
    h.vals 16 (by decide), h.vals 17 (by decide), h.vals 18 (by decide), h.vals 19 (by decide), h.vals 20 (by decide), h.vals 21 (by decide), h.vals 22 (by decide),
    h.vals 23 (by decide), h.vals 24 (by decide), h.vals 25 (by decide), h.vals 27 (by decide), h.vals 28 (by decide)]

theorem AlikeArgs.command {w : World} {p : Printer} {sub : Bytes} {r r' : Result} (h : AlikeArgs r r') : command w p sub r = command w p sub r' := by
  unfold Client.command
  rw [h.options, h.positional, h.vals 2 (by decide)]

theorem AlikeArgs.commandLib {l : LibTalk} {w : World} {p : Printer} {sub : Bytes} {r r' : Result} (h : AlikeArgs r r') : commandLib l w p sub r = commandLib l w p sub r' := by
  unfold Client.commandLib
  rw [h.options, h.positional, h.vals 2 (by decide)]

theorem AlikeArgs.main {w : World} {sub : Bytes} {rest rest' : List Bytes} {opts : List Opt} {poss : List Pos} (hc : (sub, opts, poss) ∈ commands)
    (h : AlikeArgs (getArgs opts poss rest) (getArgs opts poss rest')) : main w (sub :: rest) = main w (sub :: rest') := by
  unfold Client.main
  rw [subArgs_of hc, subArgs_of hc]
  simp only
  rw [h.vals 0 (by decide), h.success]
  have : withPrinter w sub (getArgs opts poss rest) = withPrinter w sub (getArgs opts poss rest') := by
    unfold withPrinter
    simp only [h.positional, h.command]
  rw [this]

theorem AlikeArgs.libSays {l : LibTalk} {w : World} {sub : Bytes} {rest rest' : List Bytes} {opts : List Opt} {poss : List Pos} (hc : (sub, opts, poss) ∈ commands)
    (h : AlikeArgs (getArgs opts poss rest) (getArgs opts poss rest')) : libSays l w (sub :: rest) = libSays l w (sub :: rest') := by
  unfold Client.libSays
  rw [subArgs_of hc, subArgs_of hc]
  simp only [h.vals 0 (by decide), h.success, h.positional, h.commandLib]

theorem AlikeArgs.clientSays {t : Talk} {w : World} {sub : Bytes} {rest rest' : List Bytes} {opts : List Opt} {poss : List Pos} (hc : (sub, opts, poss) ∈ commands)
    (h : AlikeArgs (getArgs opts poss rest) (getArgs opts poss rest')) : clientSays t w (sub :: rest) = clientSays t w (sub :: rest') := by
  have hp : printerSays t w sub (getArgs opts poss rest) = printerSays t w sub (getArgs opts poss rest') := by
    unfold printerSays commandSays
    simp only [h.positional, h.options, h.vals 2 (by decide)]
  unfold Client.clientSays
  rw [h.main hc, subArgs_of hc, subArgs_of hc]
  simp only [h.vals 0 (by decide), h.success, h.errMsg, hp]

/-! The converters -/

/-- Options that differ only in what is said about wrong values -/
theorem AlikeArgs.told {opts opts' : List Opt} (hb : opts'.map bare = opts.map bare) {poss : List Pos} {args args' : List Bytes} (hs : (getArgs opts poss args).success = true)
    (h : AlikeArgs (getArgs opts poss args) (getArgs opts poss args')) : AlikeArgs (getArgs opts' poss args) (getArgs opts' poss args') := by
  obtain ⟨a1, a2, a3⟩ := getArgs_bare opts poss args
  obtain ⟨b1, b2, b3⟩ := getArgs_bare opts poss args'
  obtain ⟨c1, c2, c3⟩ := getArgs_bare opts' poss args
  obtain ⟨d1, d2, d3⟩ := getArgs_bare opts' poss args'
  rw [hb] at c1 c2 c3 d1 d2 d3
  have e : (getArgs opts' poss args).success = true := by rw [← c1, a1, hs]
  have e' : (getArgs opts' poss args').success = true := by rw [← d1, b1, ← h.success, hs]
  refine ⟨by rw [e, e'], by rw [success_errMsg e, success_errMsg e'], by rw [← c3, a3, ← d3, b3, h.positional], fun i hi => ?_⟩
  rw [← c2, a2, ← d2, b2, h.vals i hi]

theorem AlikeArgs.pdfParams {r r' : Result} (h : AlikeArgs r r') (outFile : Bytes) : pdfParams r.vals outFile = pdfParams r'.vals outFile := by
  unfold Convert.pdfParams pdfBasic
  rw [h.vals 2 (by decide), h.vals 3 (by decide), h.vals 4 (by decide), h.vals 5 (by decide), h.vals 6 (by decide), h.vals 7 (by decide), h.vals 8 (by decide),
    h.vals 9 (by decide), h.vals 10 (by decide), h.vals 11 (by decide), h.vals 12 (by decide), h.vals 13 (by decide), h.vals 15 (by decide), h.vals 16 (by decide)]

theorem AlikeArgs.paramsText {r r' : Result} (h : AlikeArgs r r') (outFile : Bytes) : paramsText r.vals outFile = paramsText r'.vals outFile := by
  unfold Convert.paramsText pdfBasic
  rw [h.vals 2 (by decide), h.vals 3 (by decide), h.vals 4 (by decide), h.vals 5 (by decide), h.vals 6 (by decide), h.vals 7 (by decide), h.vals 8 (by decide),
    h.vals 9 (by decide), h.vals 10 (by decide), h.vals 11 (by decide), h.vals 12 (by decide), h.vals 13 (by decide), h.vals 15 (by decide), h.vals 16 (by decide)]

theorem AlikeArgs.ppmParams {r r' : Result} (h : AlikeArgs r r') (outFile : Bytes) : ppmParams r.vals outFile = ppmParams r'.vals outFile := by
  unfold Convert.ppmParams
  rw [h.vals 2 (by decide), h.vals 4 (by decide), h.vals 5 (by decide), h.vals 6 (by decide), h.vals 7 (by decide), h.vals 8 (by decide),
    h.vals 9 (by decide), h.vals 10 (by decide), h.vals 11 (by decide), h.vals 12 (by decide), h.vals 13 (by decide)]

theorem AlikeArgs.pdfMain {lum : Luminosity} {lib : Bytes → Bool → Library} {d : Disk} {args args' : List Bytes} (h : AlikeArgs (getArgs pdfOpts pdfPos args) (getArgs pdfOpts pdfPos args')) :
    pdfMain lum lib d args = pdfMain lum lib d args' := by
  unfold Convert.pdfMain
  simp only [h.vals 0 (by decide), h.vals 14 (by decide), h.success, h.positional, h.pdfParams]

theorem AlikeArgs.pdfSays {junk : Nat → Bytes} {lum : Luminosity} {lim : Limits} {lib : Bytes → Bool → Library} {w : Words} {name : Bytes} {args args' : List Bytes}
    (h : AlikeArgs (getArgs (pdfTold.map (·.1)) pdfPos args) (getArgs (pdfTold.map (·.1)) pdfPos args')) :
    pdfSays junk lum lim lib w name args = pdfSays junk lum lim lib w name args' := by
  unfold Convert.pdfSays
  simp only [h.vals 0 (by decide), h.vals 14 (by decide), h.success, h.errMsg, h.positional, h.pdfParams, h.paramsText]

theorem AlikeArgs.ppmMain {d : Disk} {args args' : List Bytes} (h : AlikeArgs (getArgs ppmOpts ppmPos args) (getArgs ppmOpts ppmPos args')) : ppmMain d args = ppmMain d args' := by
  unfold Convert.ppmMain ppmWith
  simp only [h.vals 0 (by decide), h.vals 3 (by decide), h.vals 13 (by decide), h.success, h.positional, h.ppmParams]

theorem AlikeArgs.ppmSays {junk : Nat → Bytes} {d : Disk} {name : Bytes} {args args' : List Bytes}
    (h : AlikeArgs (getArgs (ppmTold.map (·.1)) ppmPos args) (getArgs (ppmTold.map (·.1)) ppmPos args')) : ppmSays junk d name args = ppmSays junk d name args' := by
  unfold Convert.ppmSays
  simp only [h.vals 0 (by decide), h.vals 13 (by decide), h.success, h.errMsg, h.positional, h.ppmParams]

/-! Being verbose, on any command line -/

/-- Two ends of the loop over the options that differ only in whether the tool is to be verbose -/
def LoopsAlike (l l' : Loop) : Prop :=
  match l, l' with
  | .failed e v, .failed e' v' => e = e' ∧ ∀ i, i ≠ 1 → v i = v' i
  | .done r v, .done r' v' => r = r' ∧ ∀ i, i ≠ 1 → v i = v' i
  | _, _ => False

theorem set_alike {v v' : Vals} (h : ∀ i, i ≠ 1 → v i = v' i) (k : Nat) (x : Val) : ∀ i, i ≠ 1 → v.set k x i = v'.set k x i := by
  intro i hi
  unfold Vals.set
  rw [h i hi]

theorem options_alike (opts : List Opt) (args : List Bytes) (vals : Vals) : ∀ vals', (∀ i, i ≠ 1 → vals i = vals' i) → LoopsAlike (options opts args vals) (options opts args vals') := by
  fun_induction options opts args vals with
  | case1 vals => exact fun vals' h => ⟨rfl, h⟩
  | case2 name rest vals hf =>
    intro vals' h
    unfold options
    rw [hf]
    exact ⟨rfl, h⟩
  | case3 name rest vals i o hf ht ih =>
    intro vals' h
    rw [show options opts (name :: rest) vals' = options opts rest (vals'.set i .flag) by rw [options.eq_2]; simp only [hf, ht]]
    exact ih _ (set_alike h _ _)
  | case4 name vals i o hf conv ht =>
    intro vals' h
    unfold options
    simp only [hf, ht]
    exact ⟨rfl, h⟩
  | case5 name vals i o hf conv ht v rest x hx ih =>
    intro vals' h
    rw [show options opts (name :: v :: rest) vals' = options opts rest (vals'.set i x) by rw [options.eq_2]; simp only [hf, ht, hx]]
    exact ih _ (set_alike h _ _)
  | case6 name vals i o hf conv ht v rest hx =>
    intro vals' h
    rw [options.eq_2]
    simp only [hf, ht, hx]
    exact ⟨rfl, h⟩

theorem alike_loops {opts : List Opt} {poss : List Pos} {args args' : List Bytes} (h : LoopsAlike (options opts args (fun _ => none)) (options opts args' (fun _ => none))) :
    AlikeArgs (getArgs opts poss args) (getArgs opts poss args') := by
  unfold getArgs
  cases h1 : options opts args (fun _ => none) with
  | failed e v =>
    cases h2 : options opts args' (fun _ => none) with
    | failed e' v' =>
      rw [h1, h2] at h
      exact ⟨rfl, h.1, rfl, h.2⟩
    | done r' v' => rw [h1, h2] at h; exact h.elim
  | done r v =>
    cases h2 : options opts args' (fun _ => none) with
    | failed e' v' => rw [h1, h2] at h; exact h.elim
    | done r' v' =>
      rw [h1, h2] at h
      obtain ⟨rfl, h⟩ := h
      simp only
      split
      · exact ⟨rfl, rfl, rfl, h⟩
      · split
        · exact ⟨rfl, rfl, rfl, h⟩
        · exact ⟨rfl, rfl, rfl, h⟩
        · exact ⟨rfl, rfl, rfl, h⟩

/-- `-v` or `--verbose` is set, and nothing else happens. -/
theorem alike_verbose {opts : List Opt} {poss : List Pos} {v : Bytes} {o : Opt} (hv : first opts 0 v = some (1, o)) (ht : o.takes = none) (rest : List Bytes) :
    AlikeArgs (getArgs opts poss (v :: rest)) (getArgs opts poss rest) := by
  apply alike_loops
  rw [show options opts (v :: rest) (fun _ => none) = options opts rest (Vals.set (fun _ => none) 1 .flag) by rw [options.eq_2]; simp only [hv, ht]]
  apply options_alike
  intro i hi
  unfold Vals.set
  rw [if_neg hi]

theorem commands_verbose {sub : Bytes} {opts : List Opt} {poss : List Pos} (hc : (sub, opts, poss) ∈ commands) {v : Bytes} (hv : v = ascii "-v" ∨ v = ascii "--verbose") :
    first opts 0 v = some (1, verboseOpt) ∧ opts[1]? = some verboseOpt := by
  simp only [commands, List.mem_cons, List.not_mem_nil, or_false, Prod.mk.injEq] at hc
  rcases hc with ⟨_, rfl, _⟩ | ⟨_, rfl, _⟩ | ⟨_, rfl, _⟩ | ⟨_, rfl, _⟩ | ⟨_, rfl, _⟩ | ⟨_, rfl, _⟩ | ⟨_, rfl, _⟩ <;> rcases hv with rfl | rfl <;> exact ⟨rfl, rfl⟩

/-! ## Theorems -/

/-- **C118.** Two command lines of ippclient with the same sub-command, the same positional arguments and the same options but for `-v`, in whatever order and under
whatever names, make it do the same and say the same. -/
theorem C118_client (t : Talk) (l : LibTalk) (w : World) {sub : Bytes} {opts : List Opt} {poss : List Pos} (hc : (sub, opts, poss) ∈ commands) {rest rest' : List Bytes}
    {uses uses' : List Use} {pos : List Bytes} (ha : Accounts opts poss rest uses pos) (ha' : Accounts opts poss rest' uses' pos)
    (hs : SameWords opts (ascii "-v") uses uses') :
    main w (sub :: rest) = main w (sub :: rest') ∧ clientSays t w (sub :: rest) = clientSays t w (sub :: rest') ∧
      clientErrors t l w (sub :: rest) = clientErrors t l w (sub :: rest') := by
  have h := alike_of (command_opts hc).1 (commands_verbose hc (.inl rfl)).2 ha ha' hs
  refine ⟨h.main hc, h.clientSays hc, ?_⟩
  unfold clientErrors
  rw [h.libSays hc, h.clientSays hc]

/-- **C118.** The same for pdf2printable -/
theorem C118_pdf (junk : Nat → Bytes) (lum : Luminosity) (lim : Limits) (lib : Bytes → Bool → Library) (words : Words) (name : Bytes) (d : Disk) {args args' : List Bytes}
    {uses uses' : List Use} {pos : List Bytes} (ha : Accounts pdfOpts pdfPos args uses pos) (ha' : Accounts pdfOpts pdfPos args' uses' pos)
    (hs : SameWords pdfOpts (ascii "-v") uses uses') :
    pdfMain lum lib d args = pdfMain lum lib d args' ∧ pdfSays junk lum lim lib words name args = pdfSays junk lum lim lib words name args' := by
  have h := alike_of (disjoint_of (by decide +kernel)) rfl ha ha' hs
  exact ⟨h.pdfMain, (AlikeArgs.told (opts := pdfOpts) (opts' := pdfTold.map (·.1)) rfl (C45_complete ha).1 h).pdfSays⟩

/-- **C118.** The same for ppm2pwg -/
theorem C118_ppm (junk : Nat → Bytes) (name : Bytes) (d : Disk) {args args' : List Bytes} {uses uses' : List Use} {pos : List Bytes} (ha : Accounts ppmOpts ppmPos args uses pos)
    (ha' : Accounts ppmOpts ppmPos args' uses' pos) (hs : SameWords ppmOpts (ascii "-v") uses uses') :
    ppmMain d args = ppmMain d args' ∧ ppmSays junk d name args = ppmSays junk d name args' := by
  have h := alike_of (disjoint_of (by decide +kernel)) rfl ha ha' hs
  exact ⟨h.ppmMain, (AlikeArgs.told (opts := ppmOpts) (opts' := ppmTold.map (·.1)) rfl (C45_complete ha).1 h).ppmSays⟩

/-- **C118.** To be verbose makes no difference for any command line, correct or not. -/
theorem C118_verbose (v : Bytes) (hv : v = ascii "-v" ∨ v = ascii "--verbose") :
    (∀ (t : Talk) (l : LibTalk) (w : World) (sub : Bytes) (rest : List Bytes),
      main w (sub :: v :: rest) = main w (sub :: rest) ∧ clientSays t w (sub :: v :: rest) = clientSays t w (sub :: rest) ∧
        clientErrors t l w (sub :: v :: rest) = clientErrors t l w (sub :: rest)) ∧
    (∀ (junk : Nat → Bytes) (lum : Luminosity) (lim : Limits) (lib : Bytes → Bool → Library) (words : Words) (name : Bytes) (d : Disk) (args : List Bytes),
      pdfMain lum lib d (v :: args) = pdfMain lum lib d args ∧ pdfSays junk lum lim lib words name (v :: args) = pdfSays junk lum lim lib words name args) ∧
    (∀ (junk : Nat → Bytes) (name : Bytes) (d : Disk) (args : List Bytes),
      ppmMain d (v :: args) = ppmMain d args ∧ ppmSays junk d name (v :: args) = ppmSays junk d name args) := by
  refine ⟨fun t l w sub rest => ?_, fun junk lum lim lib words name d args => ?_, fun junk name d args => ?_⟩
  · by_cases hc : ∃ opts poss, (sub, opts, poss) ∈ commands
    · obtain ⟨opts, poss, hc⟩ := hc
      have h := alike_verbose (poss := poss) (commands_verbose hc hv).1 rfl rest
      refine ⟨h.main hc, h.clientSays hc, ?_⟩
      unfold clientErrors
      rw [h.libSays hc, h.clientSays hc]
    · have hn : ∀ rest, getSubArgs commands (sub :: rest) = .inl (ascii "Invalid sub-command") := by
        intro rest
        unfold getSubArgs
        cases hf : commands.reverse.find? (fun s => s.1 == sub) with
        | none => simp only [hf]
        | some s =>
          have h1 := List.find?_some hf
          have h2 := List.mem_of_find?_eq_some hf
          rw [List.mem_reverse] at h2
          exact absurd ⟨s.2.1, s.2.2, by rw [← eq_of_beq h1]; exact h2⟩ hc
      unfold clientErrors main clientSays libSays
      rw [hn, hn]
      exact ⟨rfl, rfl, rfl⟩
  · refine ⟨(alike_verbose (o := verboseOpt) ?_ rfl args).pdfMain, (alike_verbose (o := verboseOpt) ?_ rfl args).pdfSays⟩ <;> rcases hv with rfl | rfl <;> rfl
  · refine ⟨(alike_verbose (o := verboseOpt) ?_ rfl args).ppmMain, (alike_verbose (o := verboseOpt) ?_ rfl args).ppmSays⟩ <;> rcases hv with rfl | rfl <;> rfl

/-- **C118.** So the options can be given in any order, if none is given twice: then another order is accounted for as well, and the options are the same. -/
theorem C118_order {opts : List Opt} (hd : Disjoint opts) {poss : List Pos} {args : List Bytes} {uses uses' : List Use} {pos : List Bytes} (ha : Accounts opts poss args uses pos)
    (hp : uses'.Perm uses) (hn : (uses.map (·.option)).Nodup) (but : Bytes) :
    Accounts opts poss ((uses'.map (·.words)).flatten ++ pos) uses' pos ∧ SameWords opts but uses uses' := by
  have hu' : ∀ u ∈ uses', IsUse opts u := fun u hu => ha.uses u (hp.mem_iff.mp hu)
  refine ⟨⟨rfl, hu', ha.ended, ha.enough, ha.notMore⟩, fun o ho hb => ?_⟩
  obtain ⟨i, hi⟩ := List.mem_iff_getElem?.mp ho
  have key : ∀ us : List Use, us.Perm uses → lastUse us o.names = (us.filter (fun u => u.option == i)).getLast? := by
    intro us hus
    unfold lastUse
    congr 1
    apply List.filter_congr
    intro u hu
    rw [use_iff hd (ha.uses u (hus.mem_iff.mp hu)) hi]
  have hone : (uses.filter (fun u => u.option == i)).length ≤ 1 := by
    have h1 : ((uses.map (·.option)).filter (· == i)).length ≤ 1 := by
      have := List.nodup_iff_count_le_one.mp hn i
      rw [List.count_eq_length_filter] at this
      exact this
    rw [List.filter_map, List.length_map] at h1
    exact h1
  rw [key uses (.refl _), key uses' hp]
  have hf := hp.filter (fun u => u.option == i)
  match hs : uses.filter (fun u => u.option == i), hone with
  | [], _ => rw [hs] at hf; rw [hf.eq_nil, hs]
  | [u], _ => rw [hs] at hf; rw [hf.eq_singleton, hs]
  | _ :: _ :: _, h => rw [hs] at h; simp at h

/-- Two command lines of one job: `-d -r 600 -v` and `--resolution 600 --duplex` -/
def orderUses : List Use := [⟨9, [ascii "-d"], .flag⟩, ⟨6, [ascii "-r", ascii "600"], .num 600⟩, ⟨1, [ascii "-v"], .flag⟩]

def orderUses' : List Use := [⟨6, [ascii "--resolution", ascii "600"], .num 600⟩, ⟨9, [ascii "--duplex"], .flag⟩]

theorem order_accounts : Accounts pdfOpts pdfPos [ascii "-d", ascii "-r", ascii "600", ascii "-v", ascii "a.pdf", ascii "b.pwg"] orderUses [ascii "a.pdf", ascii "b.pwg"] ∧
    Accounts pdfOpts pdfPos [ascii "--resolution", ascii "600", ascii "--duplex", ascii "a.pdf", ascii "b.pwg"] orderUses' [ascii "a.pdf", ascii "b.pwg"] := by
  have he : ∀ a, [ascii "a.pdf", ascii "b.pwg"].head? = some a → ∀ o ∈ pdfOpts, a ∉ o.names := by
    intro a ha
    cases ha
    have : ∀ o ∈ pdfOpts.map (·.names), ascii "a.pdf" ∉ o := by decide +kernel
    exact fun o ho => this o.names (List.mem_map_of_mem ho)
  have hp : ∀ i p, pdfPos[i]? = some p → [ascii "a.pdf", ascii "b.pwg"].length ≤ i → p.optional = true := by
    intro i p hp hi
    match i, hp, hi with
    | 0, _, hi => simp at hi
    | 1, _, hi => simp at hi
    | i + 2, hp, _ => simp [pdfPos] at hp
  refine ⟨⟨by decide +kernel, ?_, he, hp, by decide +kernel⟩, ⟨by decide +kernel, ?_, he, hp, by decide +kernel⟩⟩
  · intro u hu
    simp only [orderUses, List.mem_cons, List.not_mem_nil, or_false] at hu
    rcases hu with rfl | rfl | rfl
    · exact isUse_of_switch (name := ascii "-d") rfl rfl rfl rfl rfl
    · exact isUse_of (name := ascii "-r") (w := ascii "600") rfl rfl rfl rfl (by decide +kernel)
    · exact isUse_of_switch (name := ascii "-v") rfl rfl rfl rfl rfl
  · intro u hu
    simp only [orderUses', List.mem_cons, List.not_mem_nil, or_false] at hu
    rcases hu with rfl | rfl
    · exact isUse_of (name := ascii "--resolution") (w := ascii "600") rfl rfl rfl rfl (by decide +kernel)
    · exact isUse_of_switch (name := ascii "--duplex") rfl rfl rfl rfl rfl

/-- They meet the hypotheses of C118_pdf. -/
example : SameWords pdfOpts (ascii "-v") orderUses orderUses' := by
  have : ∀ ns ∈ pdfOpts.map (·.names), ascii "-v" ∉ ns → (lastUse orderUses ns).map (·.words.tail) = (lastUse orderUses' ns).map (·.words.tail) := by decide +kernel
  exact fun o ho hb => this o.names (List.mem_map_of_mem ho) hb

/-- The first of them meets those of C118_order. -/
example : (orderUses.map (·.option)).Nodup ∧ orderUses.reverse.Perm orderUses ∧ Disjoint pdfOpts := ⟨by decide, List.reverse_perm _, disjoint_of (by decide +kernel)⟩

/-- The command lines of ippclient in ArgsProps.lean meet those of C118_client. -/
example : Accounts printOpts [addrArg, pdfArg] (([forceUse, colorUse, resolutionUse, copiesUse].map (·.words)).flatten ++ [ascii "ipp://p/ipp", ascii "a.pdf"])
    [forceUse, colorUse, resolutionUse, copiesUse] [ascii "ipp://p/ipp", ascii "a.pdf"] ∧
    SameWords printOpts (ascii "-v") [copiesUse, resolutionUse, colorUse, forceUse] [forceUse, colorUse, resolutionUse, copiesUse] :=
  C118_order (disjoint_of (by decide +kernel)) sample_accounts (List.reverse_perm [copiesUse, resolutionUse, colorUse, forceUse]) (by decide) _

end Verif.Client
