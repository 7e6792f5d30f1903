import Verif.Discovery.FollowUp
import Verif.Tools.HelpProps
import Verif.Tools.Mime

/-!
# ippdiscover and minimime: utils/ippdiscover.cpp, utils/minimime_main.cpp; properties C96 and C47
-/

namespace Verif.Discovery

open Verif.Discovery.Spec Verif.Tools

/-! ## Model -/

/-- How a program ends, what it has written, and which queries it has sent. -/
structure Ran where
  out : Outcome Nat
  stdout : Bytes := []
  stderr : Bytes := []
  sent : List Query := []

/-- The options of ippdiscover and their texts, ippdiscover.cpp 16-17. -/
def discoverOpts : List (Opt × Bytes) :=
  [(boolOpt [ascii "-h", ascii "--help"], ascii "Print this help text"), (boolOpt [ascii "-v", ascii "--verbose"], ascii "Be verbose")]

/-- `main`, ippdiscover.cpp 12-41, called by the name `name` with the arguments `args`, when the datagrams `msgs` arrive. What is written to the standard error output during the
discovery (errors in responses) is in `Complaints.lean`; the log of `-v` is not modelled, nor are exceptions from the socket. -/
def ippdiscover (clock : Nat → Nat) (msgs : List Bytes) (name : Bytes) (args : List Bytes) : Ran :=
  let r := getArgs (discoverOpts.map (·.1)) [] args
  let help := argHelp name discoverOpts []
  if (r.vals 0).isSome then { out := .ok 0, stdout := help ++ [10] }
  else if !r.success then { out := .ok 1, stderr := r.errMsg ++ [10, 10] ++ help ++ [10] }
  else match discover (sendQuery clock) msgs with
    | .ok s => { out := .ok 0, stdout := s.reported.flatMap (· ++ [10]), sent := s.sent }
    | .throws e => { out := .throws e }
    | .ub => { out := .ub }
    | .hang => { out := .hang }

/-- The names of the types, minimime.cpp 10-20; nothing for an empty file (29). -/
def mimeName : Mime → Bytes
  | .none => []
  | .pdf => ascii "application/pdf"
  | .postscript => ascii "application/postscript"
  | .pwg => ascii "image/pwg-raster"
  | .urf => ascii "image/urf"
  | .png => ascii "image/png"
  | .gif => ascii "image/gif"
  | .jpeg => ascii "image/jpeg"
  | .tiff => ascii "image/tiff"
  | .octetStream => ascii "application/octet-stream"

/-- `main`, minimime_main.cpp 5-13; a file that can not be opened is taken as empty (minimime.cpp 24-25). -/
def minimime (read : Bytes → Option Bytes) (args : List Bytes) : Ran :=
  match args with
  | [file] => { out := .ok 0, stdout := mimeName (getMimeType ((read file).getD [])) ++ [10] }
  | _ => { out := .ok 1, stderr := ascii "Usage: minimime <file>" ++ [10] }

/-! ## Specification -/

namespace Spec

/-- The words that ippdiscover knows. -/
def helpWords : List Bytes := [ascii "-h", ascii "--help"]
def verboseWords : List Bytes := [ascii "-v", ascii "--verbose"]

/-- The list, each followed by a line end. -/
def lines (l : List Bytes) : Bytes := (l.map (· ++ [10])).flatten

/-- The name of a type, as IANA has it (and Apple, for image/urf). -/
def typeNames : List (Mime × String) :=
  [(.pdf, "application/pdf"), (.postscript, "application/postscript"), (.pwg, "image/pwg-raster"), (.urf, "image/urf"), (.png, "image/png"), (.gif, "image/gif"),
    (.jpeg, "image/jpeg"), (.tiff, "image/tiff"), (.octetStream, "application/octet-stream")]

/-- A printer on the network: the service and the name it is announced for, its port and host, an address of the host, and its path. -/
structure Device where
  service : Bytes
  name : Bytes
  port : Nat
  host : Bytes
  ip : Bytes
  path : Bytes

/-- What the records say about a printer is true, and nothing is torn apart: its description has the path, and the addresses of its host come together. -/
structure Device.Truly (d : Device) (rs : List Record) : Prop where
  place : ∀ x ∈ services rs d.name, x = (d.port, d.host)
  path : ∀ v ∈ values rs d.name (ascii "rp"), v = d.path
  described : texts rs d.name ≠ [] → values rs d.name (ascii "rp") ≠ []
  addresses : addresses rs d.host ≠ [] → d.ip ∈ addresses rs d.host

/-- The records have what the query asks of this printer: to a query for its service (PTR, 12) its name, for its name its description (TXT, 16) and place (SRV, 33), for its host the
addresses (A, 1). -/
structure Device.Answers (d : Device) (rs : List Record) (Q : Query) : Prop where
  name : Q.qtype = 12 → d.service ∈ Q.names → d.name ∈ pointers d.service rs
  texts : Q.qtype = 16 → d.name ∈ Q.names → texts rs d.name ≠ []
  place : Q.qtype = 33 → d.name ∈ Q.names → services rs d.name ≠ []
  addresses : Q.qtype = 1 → d.host ∈ Q.names → addresses rs d.host ≠ []

/-- The address under which the printer is expected: with `ipps`, or with `ipp` unless it is known with `ipps` for the same address and path. -/
def Device.In (d : Device) (l : List Bytes) : Prop :=
  (d.service = ippsService → ippsUri d.port d.ip d.path ∈ l) ∧ (d.service = ippService → ippUri d.port d.ip d.path ∈ l ∨ ∃ port', ippsUri port' d.ip d.path ∈ l)

end Spec

/-! ## Proofs -/

theorem first_help {a : Bytes} (h : a ∈ helpWords) : first (discoverOpts.map (·.1)) 0 a = some (0, boolOpt helpWords) := by
  unfold helpWords at h
  simp only [List.mem_cons, List.not_mem_nil, or_false] at h
  rcases h with rfl | rfl <;> rfl

theorem first_verbose {a : Bytes} (h : a ∈ verboseWords) : first (discoverOpts.map (·.1)) 0 a = some (1, boolOpt verboseWords) := by
  unfold verboseWords at h
  simp only [List.mem_cons, List.not_mem_nil, or_false] at h
  rcases h with rfl | rfl <;> rfl

theorem first_other {a : Bytes} (h : a ∉ helpWords ++ verboseWords) : first (discoverOpts.map (·.1)) 0 a = none := by
  simp only [helpWords, verboseWords, List.cons_append, List.nil_append, List.mem_cons, List.not_mem_nil, or_false, not_or] at h
  simp only [discoverOpts, List.map_cons, List.map_nil, boolOpt, first, List.mem_cons, List.not_mem_nil, h.1, h.2.1, h.2.2.1, h.2.2.2, or_self, if_false]

theorem options_discover {pre rest : List Bytes} (hp : ∀ a ∈ pre, a ∈ helpWords ++ verboseWords) (hr : ∀ a, rest.head? = some a → a ∉ helpWords ++ verboseWords) (v : Vals) :
    ∃ v', options (discoverOpts.map (·.1)) (pre ++ rest) v = .done rest v' ∧ ((v' 0).isSome = true ↔ (v 0).isSome = true ∨ ∃ a ∈ pre, a ∈ helpWords) := by
  induction pre generalizing v with
  | nil =>
    refine ⟨v, ?_, by simp⟩
    cases rest with
    | nil => rfl
    | cons a rest =>
      rw [List.nil_append, options, first_other (hr a rfl)]
  | cons a pre ih =>
    rw [List.cons_append]
    rcases List.mem_append.mp (hp a List.mem_cons_self) with h | h
    · obtain ⟨v', h1, h2⟩ := ih (fun b hb => hp b (List.mem_cons_of_mem _ hb)) (v.set 0 .flag)
      refine ⟨v', ?_, ?_⟩
      · rw [options, first_help h]
        exact h1
      · rw [h2]
        constructor
        · intro _; exact .inr ⟨a, List.mem_cons_self, h⟩
        · intro _; left; rfl
    · obtain ⟨v', h1, h2⟩ := ih (fun b hb => hp b (List.mem_cons_of_mem _ hb)) (v.set 1 .flag)
      refine ⟨v', ?_, ?_⟩
      · rw [options, first_verbose h]
        exact h1
      · rw [h2]
        have hv : (v.set 1 .flag) 0 = v 0 := rfl
        have hn : a ∉ helpWords := by
          have : ∀ a ∈ verboseWords, a ∉ helpWords := by decide +kernel
          exact this a h
        rw [hv]
        constructor
        · rintro (h | ⟨b, hb, hh⟩)
          · exact .inl h
          · exact .inr ⟨b, List.mem_cons_of_mem _ hb, hh⟩
        · rintro (h | ⟨b, hb, hh⟩)
          · exact .inl h
          · rcases List.mem_cons.mp hb with rfl | hb
            · exact absurd hh hn
            · exact .inr ⟨b, hb, hh⟩

theorem getLast_all {α : Type} {l : List α} {x : α} (hn : l ≠ []) (h : ∀ y ∈ l, y = x) : l.getLast? = some x := by
  rw [List.getLast?_eq_some_getLast hn, h _ (List.getLast_mem hn)]

/-! ## Theorems -/

/-- **C96, the help.** When `-h` or `--help` comes before anything that is not an option, the help is shown and nothing else is done. -/
theorem C96_help (clock : Nat → Nat) (msgs : List Bytes) (name : Bytes) {pre rest : List Bytes} (hp : ∀ a ∈ pre, a ∈ helpWords ++ verboseWords)
    (hr : ∀ a, rest.head? = some a → a ∉ helpWords ++ verboseWords) (hh : ∃ a ∈ pre, a ∈ helpWords) :
    (ippdiscover clock msgs name (pre ++ rest)).out = .ok 0 ∧ (ippdiscover clock msgs name (pre ++ rest)).sent = [] ∧
    (ippdiscover clock msgs name (pre ++ rest)).stdout =
      ascii "Usage: " ++ name ++ ascii " [options]\n  -h, --help       Print this help text\n  -v, --verbose    Be verbose\n\n" := by
  obtain ⟨v, h1, h2⟩ := options_discover hp hr (fun _ => none)
  have hv : ((getArgs (discoverOpts.map (·.1)) [] (pre ++ rest)).vals 0).isSome = true := by
    have := h2.mpr (.inr hh)
    unfold getArgs
    rw [h1]
    simp only
    repeat' split
    all_goals exact this
  unfold ippdiscover
  simp only [hv, if_true]
  refine ⟨trivial, trivial, ?_⟩
  unfold argHelp
  rw [List.append_assoc (_ ++ name)]
  exact congrArg (ascii "Usage: " ++ name ++ ·) (by decide +kernel)

/-- **C96, other words.** Any other word makes it end with 1 and a message that names the word; nothing is sent. -/
theorem C96_unknown (clock : Nat → Nat) (msgs : List Bytes) (name : Bytes) {pre rest : List Bytes} {a : Bytes} (hp : ∀ a ∈ pre, a ∈ verboseWords)
    (ha : a ∉ helpWords ++ verboseWords) :
    (ippdiscover clock msgs name (pre ++ a :: rest)).out = .ok 1 ∧ (ippdiscover clock msgs name (pre ++ a :: rest)).sent = [] ∧
    (ippdiscover clock msgs name (pre ++ a :: rest)).stdout = [] ∧
    ∃ more, (ippdiscover clock msgs name (pre ++ a :: rest)).stderr = ascii "Unknown argument: " ++ a ++ [10] ++ more := by
  obtain ⟨v, h1, h2⟩ := options_discover (rest := a :: rest) (fun b hb => List.mem_append_right _ (hp b hb)) (fun b hb => by cases hb; exact ha) (fun _ => none)
  have hv : (v 0).isSome = false := by
    rw [Bool.eq_false_iff]
    intro h
    rcases h2.mp h with h | ⟨b, hb, hh⟩
    · cases h
    · have : ∀ a ∈ verboseWords, a ∉ helpWords := by decide +kernel
      exact this b (hp b hb) hh
  have hg : getArgs (discoverOpts.map (·.1)) [] (pre ++ a :: rest) = { success := false, errMsg := ascii "Unknown argument: " ++ a, vals := v, positional := [] } := by
    unfold getArgs
    rw [h1]
    rfl
  unfold ippdiscover
  simp only [hg, hv, Bool.false_eq_true, if_false, Bool.not_false, if_true]
  exact ⟨trivial, trivial, trivial, 10 :: (argHelp name discoverOpts [] ++ [10]), by simp⟩

theorem ippdiscover_run {clock : Nat → Nat} {msgs : List Bytes} {name : Bytes} {args : List Bytes} (hp : ∀ a ∈ args, a ∈ verboseWords) {c : Nat}
    (h : (ippdiscover clock msgs name args).out = .ok c) :
    c = 0 ∧ ∃ s, discover (sendQuery clock) msgs = .ok s ∧ (ippdiscover clock msgs name args).stdout = lines s.reported ∧ (ippdiscover clock msgs name args).sent = s.sent := by
  obtain ⟨v, h1, h2⟩ := options_discover (rest := []) (fun b hb => List.mem_append_right _ (hp b hb)) nofun (fun _ => none)
  rw [List.append_nil] at h1
  have hv : (v 0).isSome = false := by
    rw [Bool.eq_false_iff]
    intro h
    rcases h2.mp h with h | ⟨b, hb, hh⟩
    · cases h
    · have : ∀ a ∈ verboseWords, a ∉ helpWords := by decide +kernel
      exact this b (hp b hb) hh
  have hg : getArgs (discoverOpts.map (·.1)) [] args = { success := true, errMsg := [], vals := v, positional := [] } := by
    unfold getArgs
    rw [h1]
    rfl
  unfold ippdiscover at h ⊢
  simp only [hg, hv, Bool.false_eq_true, if_false, Bool.not_true] at h ⊢
  cases hd : discover (sendQuery clock) msgs with
  | ok s =>
    rw [hd] at h
    cases h
    exact ⟨rfl, s, rfl, List.flatMap_def, rfl⟩
  | throws e => rw [hd] at h; cases h
  | ub => rw [hd] at h; cases h
  | hang => rw [hd] at h; cases h

/-- **C96, the output.** Otherwise it ends with 0, and has shown a list of addresses, one a line and none twice; when the responses have up to 4096 bytes, each is that of a printer that the
responses tell of. Missing: longer responses, and discoveries of more than two seconds, whose behaviour may be undefined (C53). -/
theorem C96_shown_partial {clock : Nat → Nat} {msgs : List Bytes} {name : Bytes} {args : List Bytes} (hp : ∀ a ∈ args, a ∈ verboseWords) {rss : List (List Record)}
    (hr : Responses msgs rss) (hl : ∀ m ∈ msgs, m.length ≤ 4096) {c : Nat} (h : (ippdiscover clock msgs name args).out = .ok c) :
    c = 0 ∧ ∃ found : List Bytes, (ippdiscover clock msgs name args).stdout = lines found ∧ found.Nodup ∧
      ∀ a ∈ found, ∃ j it port ip path, (Printer (rss.take j).flatten ippsService it port ip path ∧ a = ippsUri port ip path) ∨
        (Printer (rss.take j).flatten ippService it port ip path ∧ a = ippUri port ip path) := by
  obtain ⟨h1, s, h2, h3, -⟩ := ippdiscover_run hp h
  exact ⟨h1, s.reported, h3, C43_once h2, fun a ha => C66_sound_partial (.inl rfl) hr hl h2 ha⟩

/-- **C96, it ends properly.** A discovery that lasts no more than two seconds ends with 0, whatever arrives. -/
theorem C96_ends_partial {clock : Nat → Nat} (hc : Forward clock) (hs : Short clock) (msgs : List Bytes) (name : Bytes) {args : List Bytes} (hp : ∀ a ∈ args, a ∈ verboseWords) :
    (ippdiscover clock msgs name args).out = .ok 0 := by
  obtain ⟨s, hd⟩ := C53_short_partial hc hs msgs
  obtain ⟨v, h1, h2⟩ := options_discover (rest := []) (fun b hb => List.mem_append_right _ (hp b hb)) nofun (fun _ => none)
  rw [List.append_nil] at h1
  have hv : (v 0).isSome = false := by
    rw [Bool.eq_false_iff]
    intro h
    rcases h2.mp h with h | ⟨b, hb, hh⟩
    · cases h
    · have : ∀ a ∈ verboseWords, a ∉ helpWords := by decide +kernel
      exact this b (hp b hb) hh
  have hg : getArgs (discoverOpts.map (·.1)) [] args = { success := true, errMsg := [], vals := v, positional := [] } := by
    unfold getArgs
    rw [h1]
    rfl
  unfold ippdiscover
  simp only [hg, hv, Bool.false_eq_true, if_false, Bool.not_true, hd]

/-- **C96, every printer that answers is shown**, however the answers are spread over responses and ordered: when all queries that were sent have been answered for a printer
by the end, and truly, it is shown. -/
theorem C96_found_partial {clock : Nat → Nat} {msgs : List Bytes} {name : Bytes} {args : List Bytes} (hp : ∀ a ∈ args, a ∈ verboseWords) {rss : List (List Record)}
    (hr : Responses msgs rss) (hl : ∀ m ∈ msgs, m.length ≤ 4096) {c : Nat} (h : (ippdiscover clock msgs name args).out = .ok c)
    {d : Device} (hs : d.service = ippService ∨ d.service = ippsService) (ht : d.Truly rss.flatten)
    (ha : ∀ Q ∈ (ippdiscover clock msgs name args).sent, d.Answers rss.flatten Q) :
    ∃ found : List Bytes, (ippdiscover clock msgs name args).stdout = lines found ∧ d.In found := by
  obtain ⟨h1, s, h2, h3, h4⟩ := ippdiscover_run hp h
  rw [h4] at ha
  have ask : Asking clock (sendQuery clock) := .inl rfl
  have hname : d.name ∈ pointers d.service rss.flatten := by
    obtain ⟨Q, hq, hty, hn⟩ := (C67_queries ask h2).1
    have hm : Q ∈ s.sent := List.mem_of_mem_head? hq
    refine (ha Q hm).name hty ?_
    rw [hn]
    rcases hs with h | h <;> rw [h] <;> simp
  have hboth : d.name ∈ pointers ippService rss.flatten ∨ d.name ∈ pointers ippsService rss.flatten := by
    rcases hs with h | h <;> rw [h] at hname
    · exact .inl hname
    · exact .inr hname
  obtain ⟨k1, k2⟩ := C67_described_partial ask hr hl h2 hboth
  have htexts : texts rss.flatten d.name ≠ [] := fun h0 => by
    obtain ⟨Q, hQ, hty, hn⟩ := k1 h0
    exact (ha Q hQ).texts hty hn h0
  have hserv : services rss.flatten d.name ≠ [] := fun h0 => by
    obtain ⟨Q, hQ, hty, hn⟩ := k2 h0
    exact (ha Q hQ).place hty hn h0
  have hlast : (services rss.flatten d.name).getLast? = some (d.port, d.host) := getLast_all hserv ht.place
  have hmem : (d.port, d.host) ∈ services rss.flatten d.name := List.mem_of_getLast? hlast
  have haddr : addresses rss.flatten d.host ≠ [] := fun h0 => by
    obtain ⟨Q, hQ, hty, hn⟩ := C67_located_partial ask hr hl h2 hmem h0
    exact (ha Q hQ).addresses hty hn h0
  have hprinter : Printer rss.flatten d.service d.name d.port d.ip d.path :=
    ⟨hname, d.host, hlast, ht.addresses haddr, getLast_all (ht.described htexts) ht.path⟩
  refine ⟨s.reported, h3, fun hi => ?_, fun hi => ?_⟩
  · rw [hi] at hprinter
    exact C66_secure_partial ask hr hl h2 hprinter
  · rw [hi] at hprinter
    exact C66_plain_partial ask hr hl h2 hprinter

/-- **C47, the program.** `minimime` with one file that starts with the magic number of a type shows the name of the type; for any other file with something in it
it shows application/octet-stream (or image/tiff, see `C47_tiff_false`); without a file, or with more than one, it ends with 1 and shows
nothing else. -/
theorem C47_program (read : Bytes → Option Bytes) :
    (∀ file data t, read file = some data → Tools.Spec.HasMagic data t → (minimime read [file]).out = .ok 0 ∧
      ∃ n, (t, n) ∈ typeNames ∧ (minimime read [file]).stdout = ascii n ++ [10]) ∧
    (∀ file data, read file = some data → data ≠ [] → (∀ t, ¬ Tools.Spec.HasMagic data t) →
      (minimime read [file]).stdout = ascii "application/octet-stream\n" ∨ (minimime read [file]).stdout = ascii "image/tiff\n") ∧
    (∀ file, (read file = none ∨ read file = some []) → (minimime read [file]).stdout = [10]) ∧
    (∀ args, args.length ≠ 1 → (minimime read args).out = .ok 1 ∧ (minimime read args).stdout = [] ∧ (minimime read args).stderr = ascii "Usage: minimime <file>\n") := by
  have usage : ascii "Usage: minimime <file>" ++ [10] = ascii "Usage: minimime <file>\n" := by decide +kernel
  refine ⟨fun file data t h1 h2 => ?_, fun file data h1 h2 h3 => ?_, fun file h => ?_, fun args h => ?_⟩
  rotate_left
  · unfold minimime
    simp only [h1, Option.getD_some]
    have hno : ∀ t, t ≠ .tiff → t ≠ .none → t ≠ .octetStream → getMimeType data ≠ t := fun t a b c h => h3 t ((C47_exact_partial a b c).mp h)
    have h4 : getMimeType data ≠ .none := fun h => h2 ((C47_unknown data).1.mp h)
    have h5 : getMimeType data = .octetStream ∨ getMimeType data = .tiff := by
      cases hg : getMimeType data <;> first | exact .inl rfl | exact .inr rfl | exact absurd hg h4 | exact absurd hg (hno _ (by decide) (by decide) (by decide))
    rcases h5 with h5 | h5 <;> rw [h5]
    · exact .inl (by decide +kernel)
    · exact .inr (by decide +kernel)
  rotate_right
  · unfold minimime
    simp only [h1, Option.getD_some, C47_recognised h2]
    refine ⟨trivial, ?_⟩
    have named : ∀ x ∈ Tools.Spec.magics, typeNames.any (fun e => decide (e.1 = x.1 ∧ mimeName x.1 = ascii e.2)) = true := by decide +kernel
    obtain ⟨m, hm, -⟩ := h2
    obtain ⟨⟨t', n⟩, hn, he⟩ := List.any_eq_true.mp (named _ hm)
    obtain ⟨e1, e2⟩ := of_decide_eq_true he
    simp only at e1 e2
    subst e1
    exact ⟨n, hn, by rw [e2]⟩
  · unfold minimime
    rcases h with h | h <;> simp only [h] <;> rfl
  · match args, h with
    | [], _ => exact ⟨rfl, rfl, usage⟩
    | [a], h => exact absurd rfl h
    | a :: b :: l, _ => exact ⟨rfl, rfl, usage⟩

/-! ## Cases that meet the hypotheses -/

/-- the printer of `exampleRecords` -/
def exDevice : Device :=
  { service := ippsService, name := ascii "P._ipps._tcp.local", port := 8443, host := ascii "h.local", ip := ascii "10.0.0.9", path := ascii "ipp/print" }

/-- It is told of truly, and the only query was answered. -/
example : exDevice.Truly [exampleRecords].flatten ∧ (∀ Q ∈ (ippdiscover (fun _ => 0) [exampleResponse] (ascii "ippdiscover") [ascii "-v"]).sent, exDevice.Answers [exampleRecords].flatten Q) ∧
    (ippdiscover (fun _ => 0) [exampleResponse] (ascii "ippdiscover") [ascii "-v"]).stdout = ascii "ipps://10.0.0.9:8443/ipp/print\n" ∧
    (∀ m ∈ [exampleResponse], m.length ≤ 4096) ∧ Responses [exampleResponse] [exampleRecords] := by
  refine ⟨⟨by decide +kernel, by decide +kernel, by decide +kernel, by decide +kernel⟩, ?_, by decide +kernel, by decide +kernel, .cons example_response .nil⟩
  intro Q _
  exact ⟨fun _ _ => by decide +kernel, fun _ _ => by decide +kernel, fun _ _ => by decide +kernel, fun _ _ => by decide +kernel⟩

example : (ippdiscover (fun _ => 0) [] (ascii "ippdiscover") [ascii "-v", ascii "--help", ascii "x"]).stdout =
    ascii "Usage: ippdiscover [options]\n  -h, --help       Print this help text\n  -v, --verbose    Be verbose\n\n" ∧
    (ippdiscover (fun _ => 0) [] (ascii "ippdiscover") [ascii "-v", ascii "x", ascii "-h"]).out = .ok 1 := by
  decide +kernel

/-- **C96, where it fails.** A printer that answers in a response of more than 4096 bytes is not shown (C66). -/
theorem C96_long_false : ¬ ∀ (clock : Nat → Nat) (msgs : List Bytes) (name : Bytes) (args : List Bytes) (rss : List (List Record)), (∀ a ∈ args, a ∈ verboseWords) → Responses msgs rss →
    ∀ d : Device, (d.service = ippService ∨ d.service = ippsService) → d.Truly rss.flatten → (∀ Q ∈ (ippdiscover clock msgs name args).sent, d.Answers rss.flatten Q) →
      ∃ found : List Bytes, (ippdiscover clock msgs name args).stdout = lines found ∧ d.In found := by
  intro h
  obtain ⟨found, h1, h2⟩ := h (fun _ => 0) [longResponse 4] [] [] [longRecords (exampleRecords.take 4)] (fun _ h => by cases h) (.cons (long_response 4 (.inr rfl)) .nil) exDevice (.inr rfl)
    ⟨by decide +kernel, by decide +kernel, by decide +kernel, by decide +kernel⟩
    (fun Q _ => ⟨fun _ _ => by decide +kernel, fun _ _ => by decide +kernel, fun _ _ => by decide +kernel, fun _ _ => by decide +kernel⟩)
  have h3 : (ippdiscover (fun _ => 0) [longResponse 4] [] []).stdout = [] := by decide +kernel
  rw [h3] at h1
  cases found with
  | nil => cases h2.1 rfl
  | cons a l =>
    have := congrArg List.length h1
    simp [lines] at this

/-- A response that names a printer, and nothing else. -/
def nameOnly : Bytes := [be16 0, be16 0x8400, be16 0, be16 1, be16 0, be16 0].flatten ++ (exampleResponse.drop 12).take 32

/-- **C96, where it fails.** When an answer comes after five seconds the behaviour of the program is undefined (C53): the old query is removed from the list that is gone through. -/
theorem C96_slow_false : ∃ clock, Forward clock ∧ (ippdiscover clock [nameOnly] [] []).out = .ub :=
  ⟨fun i => 5000000000 * i, fun i j h => Nat.mul_le_mul_left _ h, by decide +kernel⟩

end Verif.Discovery
