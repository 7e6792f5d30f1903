import Verif.Discovery.Tool

/-!
# The socket of the discovery: lib/udpsocket.h and the loop of `IppDiscovery::discover`; property C102

Times are in nanoseconds. A datagram is in the socket's queue from the time of its arrival until it is fetched, in the order of arrival; none is lost. Errors of the calls
`socket`, `setsockopt`, `sendto` and `recvfrom` are in SocketErrors.lean (the first two make the program throw, the third is ignored, the last ends the loop as a timeout does).
-/

namespace Verif.Discovery

open Verif.Discovery.Spec Verif.Tools

/-! ## Model -/

/-- A datagram and the time of its arrival. -/
structure Arrival where
  time : Nat
  bytes : Bytes

/-- `UdpSocket::receive`, udpsocket.h 46-69, called at the time `now` with a time limit and a buffer of the given size, when `first` is the first datagram that is there or will arrive:
the message, and when the call returns. Line 63 takes an empty datagram and a timeout alike; a longer datagram than the buffer is cut off by `recvfrom`. -/
def socketReceive (buffer limit now : Nat) (first : Option Arrival) : Bytes × Nat :=
  match first with
  | some a => if a.time ≤ now + limit then (a.bytes.take buffer, max now a.time) else ([], now + limit)
  | none => ([], now + limit)

/-- The loop of `discover`, ippdiscovery.cpp 265-394, from the time `now` on with the datagrams that arrive: what is known at the end, and when that is. The handling of the `k`-th message
takes the time `work k`. -/
def listen (ask : Nat → List Bytes → St → Outcome St) (buffer : Nat) (work : Nat → Nat) : List Arrival → Nat → Nat → St → Outcome (St × Nat)
  | [], _, now, s => .ok (s, (socketReceive buffer 2000000000 now none).2)
  | a :: rest, k, now, s =>
    let r := socketReceive buffer 2000000000 now (some a)
    if r.1 = [] then .ok (s, r.2)
    else do
      let s' ← afterReading ask (readResponse r.1 s)
      listen ask buffer work rest (k + 1) (r.2 + work k) s'

/-- `discover`, ippdiscovery.cpp 259-395, begun at the time 0; the first query is sent at the time `now`. -/
def discoverOn (ask : Nat → List Bytes → St → Outcome St) (buffer : Nat) (work : Nat → Nat) (now : Nat) (arrivals : List Arrival) : Outcome (St × Nat) := do
  let s ← ask 12 [ascii "_ipp._tcp.local", ascii "_ipps._tcp.local"] start
  listen ask buffer work arrivals 0 now s

/-! ## Specification -/

namespace Spec

/-- When the program is ready to listen again, having begun to listen at `now` and handled these datagrams. -/
def readyAfter (work : Nat → Nat) : Nat → Nat → List Arrival → Nat
  | _, now, [] => now
  | k, now, a :: rest => readyAfter work (k + 1) (max now a.time + work k) rest

/-- Every one of the datagrams is there within two seconds after the program is ready to listen. -/
def InTime (work : Nat → Nat) (k now : Nat) (l : List Arrival) : Prop :=
  ∀ before a after, l = before ++ a :: after → a.time ≤ readyAfter work k now before + 2000000000

end Spec

/-! ## Proofs -/

theorem InTime.head {work : Nat → Nat} {k now : Nat} {a : Arrival} {l : List Arrival} (h : InTime work k now (a :: l)) : a.time ≤ now + 2000000000 := h [] a l rfl

theorem InTime.tail {work : Nat → Nat} {k now : Nat} {a : Arrival} {l : List Arrival} (h : InTime work k now (a :: l)) : InTime work (k + 1) (max now a.time + work k) l := by
  intro before b after e
  exact h (a :: before) b after (by rw [e, List.cons_append])

/-- When the loop ends: with a timeout, or with an empty datagram. -/
def endsAt (ready : Nat) : List Arrival → Nat
  | a :: _ => if a.time ≤ ready + 2000000000 then max ready a.time else ready + 2000000000
  | [] => ready + 2000000000

theorem listen_heard (ask : Nat → List Bytes → St → Outcome St) (buffer : Nat) (work : Nat → Nat) {k now : Nat} {heard rest : List Arrival} (s : St)
    (ht : InTime work k now heard) (hn : ∀ a ∈ heard, a.bytes ≠ [] ∧ a.bytes.length ≤ buffer)
    (hr : ∀ a, rest.head? = some a → a.bytes ≠ [] → readyAfter work k now heard + 2000000000 < a.time) :
    listen ask buffer work (heard ++ rest) k now s = (receive ask (heard.map (·.bytes)) s).bind (fun s' => .ok (s', endsAt (readyAfter work k now heard) rest)) := by
  induction heard generalizing k now s with
  | nil =>
    simp only [List.nil_append, readyAfter] at hr ⊢
    cases rest with
    | nil => rfl
    | cons a rest =>
      show (if (socketReceive buffer 2000000000 now (some a)).1 = [] then _ else _) = _
      by_cases h : a.time ≤ now + 2000000000
      · have h0 : a.bytes = [] := Decidable.byContradiction fun hne => by
          have := hr a rfl hne
          omega
        simp [socketReceive, h, h0, receive, endsAt]
        rfl
      · simp [socketReceive, h, receive, endsAt]
        rfl
  | cons a heard ih =>
    have h1 := hn a List.mem_cons_self
    have h2 : socketReceive buffer 2000000000 now (some a) = (a.bytes, max now a.time) := by
      unfold socketReceive
      simp only [if_pos (InTime.head ht)]
      rw [List.take_of_length_le h1.2]
    show (if (socketReceive buffer 2000000000 now (some a)).1 = [] then _ else _) = _
    rw [h2]
    simp only [if_neg h1.1, List.map_cons, receive]
    cases afterReading ask (readResponse a.bytes s) with
    | ok s' => exact ih s' (InTime.tail ht) (fun b hb => hn b (List.mem_cons_of_mem _ hb)) hr
    | throws e => rfl
    | ub => rfl
    | hang => rfl

/-! ## Theorems -/

/-- **C102, every answer in time is heard.** Of the datagrams that arrive, let `heard` be some first ones, none empty, each within two seconds after the one before was dealt with, and let
the next come later than that, if it comes. Then the discovery does what `discover` does with exactly these, and is over two seconds after the last was dealt with. -/
theorem C102_heard (ask : Nat → List Bytes → St → Outcome St) {buffer : Nat} (hb : 65535 ≤ buffer) (work : Nat → Nat) (now : Nat) {heard rest : List Arrival}
    (hu : ∀ a ∈ heard, a.bytes ≠ [] ∧ a.bytes.length ≤ 65535) (ht : InTime work 0 now heard)
    (hr : ∀ a, rest.head? = some a → readyAfter work 0 now heard + 2000000000 < a.time) :
    discoverOn ask buffer work now (heard ++ rest) =
      (discover ask (heard.map (·.bytes))).bind (fun s => .ok (s, readyAfter work 0 now heard + 2000000000)) := by
  unfold discoverOn discover
  cases ask 12 [ascii "_ipp._tcp.local", ascii "_ipps._tcp.local"] start with
  | ok s =>
    simp only [Outcome.bind_ok]
    rw [listen_heard ask buffer work s ht (fun a ha => ⟨(hu a ha).1, Nat.le_trans (hu a ha).2 hb⟩) (fun a ha _ => hr a ha)]
    cases rest with
    | nil => rfl
    | cons a rest =>
      have := hr a rfl
      simp only [endsAt]
      rw [if_neg (by omega)]
  | throws e => rfl
  | ub => rfl
  | hang => rfl

/-- Three datagrams, the last too late. -/
example : InTime (fun _ => 1000) 0 5 [⟨1500000000, [1]⟩, ⟨3500001000, [2]⟩] ∧ readyAfter (fun _ => 1000) 0 5 [⟨1500000000, [1]⟩, ⟨3500001000, [2]⟩] + 2000000000 < 5500002001 := by
  refine ⟨?_, by decide⟩
  intro before a after e
  match before, e with
  | [], e => cases e; decide
  | [_], e => cases e; decide
  | [_, _], e => cases e
  | _ :: _ :: _ :: _, e => simp at e

/-- **C102, the sum of it.** With arrivals as above and nothing else on the command line, ippdiscover shows exactly the list that the heard datagrams give. -/
theorem C102_shown {clock : Nat → Nat} {buffer : Nat} (hb : 65535 ≤ buffer) (work : Nat → Nat) (now : Nat) {heard rest : List Arrival}
    (hu : ∀ a ∈ heard, a.bytes ≠ [] ∧ a.bytes.length ≤ 65535) (ht : InTime work 0 now heard)
    (hr : ∀ a, rest.head? = some a → readyAfter work 0 now heard + 2000000000 < a.time) (name : Bytes) {args : List Bytes} (hp : ∀ a ∈ args, a ∈ verboseWords)
    {s : St} {ended : Nat} (h : discoverOn (sendQuery clock) buffer work now (heard ++ rest) = .ok (s, ended)) :
    (ippdiscover clock (heard.map (·.bytes)) name args).out = .ok 0 ∧ (ippdiscover clock (heard.map (·.bytes)) name args).stdout = lines s.reported ∧
    ended = readyAfter work 0 now heard + 2000000000 := by
  rw [C102_heard _ hb work now hu ht hr] at h
  cases hd : discover (sendQuery clock) (heard.map (·.bytes)) with
  | ok s' =>
    rw [hd] at h
    cases h
    obtain ⟨v, h1, h2⟩ := options_discover (rest := []) (fun b hb => List.mem_append_right _ (hp b hb)) nofun (fun _ => none)
    rw [List.append_nil] at h1
    have hv : (v 0).isSome = false := by
      rw [Bool.eq_false_iff]
      intro h
      rcases h2.mp h with h | ⟨b, hb, hh⟩
      · cases h
      · have : ∀ a ∈ verboseWords, a ∉ helpWords := by decide +kernel
        exact this b (hp b hb) hh
    have hg : getArgs (discoverOpts.map (·.1)) [] args = { success := true, errMsg := [], vals := v, positional := [] } := by
      unfold getArgs
      rw [h1]
      rfl
    have ho : (ippdiscover clock (heard.map (·.bytes)) name args).out = .ok 0 := by
      unfold ippdiscover
      simp only [hg, hv, Bool.false_eq_true, if_false, Bool.not_true, hd]
    obtain ⟨-, s'', h3, h4, -⟩ := ippdiscover_run hp ho
    rw [hd] at h3
    cases h3
    exact ⟨ho, h4, rfl⟩
  | throws e => rw [hd] at h; cases h
  | ub => rw [hd] at h; cases h
  | hang => rw [hd] at h; cases h

/-- **C102, an empty datagram.** It ends the discovery at once: whatever arrives after it is not looked at. -/
theorem C102_empty (ask : Nat → List Bytes → St → Outcome St) {buffer : Nat} (hb : 65535 ≤ buffer) (work : Nat → Nat) (now : Nat) {heard : List Arrival}
    (hu : ∀ a ∈ heard, a.bytes ≠ [] ∧ a.bytes.length ≤ 65535) (ht : InTime work 0 now heard) {t : Nat} (h : t ≤ readyAfter work 0 now heard + 2000000000) (rest : List Arrival) :
    discoverOn ask buffer work now (heard ++ ⟨t, []⟩ :: rest) =
      (discover ask (heard.map (·.bytes))).bind (fun s => .ok (s, max (readyAfter work 0 now heard) t)) := by
  unfold discoverOn discover
  cases ask 12 [ascii "_ipp._tcp.local", ascii "_ipps._tcp.local"] start with
  | ok s =>
    simp only [Outcome.bind_ok]
    rw [listen_heard ask buffer work s ht (fun a ha => ⟨(hu a ha).1, Nat.le_trans (hu a ha).2 hb⟩) (fun a ha hn => by
      cases ha
      exact absurd rfl hn)]
    simp only [endsAt, if_pos h]
  | throws e => rfl
  | ub => rfl
  | hang => rfl

/-- A datagram that announces a whole printer: PTR, SRV, TXT and A records in one. -/
def announcement : Bytes :=
  [0, 0, 132, 0, 0, 0, 0, 4, 0, 0, 0, 0] ++
  ([4] ++ ascii "_ipp" ++ [4] ++ ascii "_tcp" ++ [5] ++ ascii "local" ++ [0, 0, 12, 0, 1, 0, 0, 0, 10, 0, 4, 1, 112, 192, 12]) ++
  ([192, 39, 0, 33, 0, 1, 0, 0, 0, 10, 0, 10, 0, 0, 0, 0, 2, 119, 1, 104, 192, 22]) ++
  ([192, 39, 0, 16, 0, 1, 0, 0, 0, 10, 0, 5, 4] ++ ascii "rp=q") ++
  ([192, 61, 0, 1, 0, 1, 0, 0, 0, 10, 0, 4, 10, 0, 0, 1])

/-- What is shown after a discovery at these times. -/
def shownAfter (arrivals : List Arrival) : List Bytes :=
  match discoverOn (sendQuery fun _ => 0) 65536 (fun _ => 0) 0 arrivals with
  | .ok (s, _) => s.reported
  | _ => []

/-- **C102 is false for an empty datagram among the others.** A printer that answers in time is shown; if an empty datagram arrives before its answer, nothing is shown. -/
theorem C102_empty_false : shownAfter [⟨1000, announcement⟩] = [ascii "ipp://10.0.0.1/q"] ∧ shownAfter [⟨500, []⟩, ⟨1000, announcement⟩] = [] := by
  decide +kernel

/-- One datagram of one byte each second, `n` of them. -/
def drip (start : Nat) : Nat → List Arrival
  | 0 => []
  | n + 1 => ⟨1000000000 * start, [0]⟩ :: drip (start + 1) n

theorem mem_drip {start n : Nat} {a : Arrival} (h : a ∈ drip start n) : a.bytes = [0] := by
  induction n generalizing start with
  | zero => cases h
  | succ n ih =>
    rcases List.mem_cons.mp h with rfl | h
    · rfl
    · exact ih h

theorem ready_drip (n k now start : Nat) (h : now ≤ 1000000000 * start) : readyAfter (fun _ => 0) k now (drip start (n + 1)) = 1000000000 * (start + n) := by
  induction n generalizing k now start with
  | zero =>
    show max now (1000000000 * start) + 0 = _
    omega
  | succ n ih =>
    show readyAfter (fun _ => 0) (k + 1) (max now (1000000000 * start) + 0) (drip (start + 1) (n + 1)) = _
    rw [ih _ _ _ (by omega)]
    omega

theorem inTime_cons {work : Nat → Nat} {k now : Nat} {a : Arrival} {l : List Arrival} (h : a.time ≤ now + 2000000000) (h' : InTime work (k + 1) (max now a.time + work k) l) :
    InTime work k now (a :: l) := by
  intro before b after e
  cases before with
  | nil =>
    cases e
    exact h
  | cons c before =>
    obtain ⟨rfl, e'⟩ := List.cons.inj e
    exact h' before b after e'

theorem inTime_drip (n k now start : Nat) (h : 1000000000 * start ≤ now + 1000000000) (h' : now ≤ 1000000000 * start) : InTime (fun _ => 0) k now (drip start n) := by
  induction n generalizing k now start with
  | zero =>
    intro before a after e
    simp [drip] at e
  | succ n ih =>
    refine inTime_cons (a := ⟨1000000000 * start, [0]⟩) (by simp only; omega) (ih _ _ _ ?_ ?_)
    · simp only; omega
    · simp only; omega

/-- **C102, no end is certain.** However long one waits, there are datagrams, one a second and none of them a response, that keep the discovery going for longer. -/
theorem C102_ends_false (limit : Nat) : ∃ arrivals s ended, discoverOn (sendQuery fun _ => 0) 65536 (fun _ => 0) 0 arrivals = .ok (s, ended) ∧ limit < ended := by
  obtain ⟨s, hs⟩ := C53_short_partial (clock := fun _ => 0) (fun _ _ _ => Nat.le_refl _) (fun _ => Nat.zero_le _) ((drip 0 (limit + 1)).map (·.bytes))
  have h := C102_heard (sendQuery fun _ => 0) (buffer := 65536) (by decide) (fun _ => 0) 0 (heard := drip 0 (limit + 1)) (rest := [])
    (fun a ha => by rw [mem_drip ha]; exact ⟨nofun, by decide⟩) (inTime_drip _ _ _ _ (by decide) (Nat.zero_le _)) nofun
  rw [hs, List.append_nil, ready_drip _ _ _ _ (Nat.zero_le _)] at h
  exact ⟨_, s, _, h, by omega⟩

end Verif.Discovery
