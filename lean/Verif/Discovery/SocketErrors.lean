import Verif.Discovery.Socket

/-!
# Errors of the socket: lib/udpsocket.h and `IppDiscovery::discover`; property C130
-/

namespace Verif.Discovery

open Verif.Discovery.Spec Verif.Tools

/-! ## Model -/

/-- What `recvfrom` has to answer: a datagram, or that it failed (for instance with EINTR, when the program was stopped and goes on, signal(7)) -/
inductive Incoming where
  | datagram (a : Arrival)
  | fails (time : Nat)

/-- What the system does: whether `socket` succeeds, whether the `k`-th call of `setsockopt` does, and whether the `k`-th call of `sendto` does -/
structure System where
  socket : Bool
  option : Nat → Bool
  sent : Nat → Bool

/-- `UdpSocket::receive`, udpsocket.h 46-69: lines 54-57 throw `std::runtime_error` with this text; line 63 takes a failure as an empty message. -/
def receiveSys (sys : System) (buffer limit now k : Nat) (first : Option Incoming) : Except String (Bytes × Nat) :=
  if sys.option k then
    match first with
    | some (.datagram a) => .ok (socketReceive buffer limit now (some a))
    | some (.fails t) => .ok ([], min (max now t) (now + limit))
    | none => .ok (socketReceive buffer limit now none)
  else .error "setsockopt failed"

/-- The loop of `discover`, ippdiscovery.cpp 265-394; error: a `std::runtime_error`, for which nothing stands in between here and the end of the program. -/
def listenSys (sys : System) (ask : Nat → List Bytes → St → Outcome St) (buffer : Nat) (work : Nat → Nat) : List Incoming → Nat → Nat → St → Except String (Outcome (St × Nat))
  | [], k, now, s => (receiveSys sys buffer 2000000000 now k none).map fun r => .ok (s, r.2)
  | a :: rest, k, now, s =>
    match receiveSys sys buffer 2000000000 now k (some a) with
    | .error e => .error e
    | .ok r =>
      if r.1 = [] then .ok (.ok (s, r.2))
      else
        match afterReading ask (readResponse r.1 s) with
        | .ok s' => listenSys sys ask buffer work rest (k + 1) (r.2 + work k) s'
        | .throws e => .ok (.throws e)
        | .ub => .ok .ub
        | .hang => .ok .hang

/-- The constructor of the socket, udpsocket.h 22-34, and `discover`, ippdiscovery.cpp 259-395. What `sendto` answers (udpsocket.h 41-45) is not looked at (ippdiscovery.cpp 173), so `sys.sent` is not used. -/
def discoverSys (sys : System) (ask : Nat → List Bytes → St → Outcome St) (buffer : Nat) (work : Nat → Nat) (now : Nat) (incoming : List Incoming) : Except String (Outcome (St × Nat)) :=
  if sys.socket then
    match ask 12 [ascii "_ipp._tcp.local", ascii "_ipps._tcp.local"] start with
    | .ok s => listenSys sys ask buffer work incoming 0 now s
    | .throws e => .ok (.throws e)
    | .ub => .ok .ub
    | .hang => .ok .hang
  else .error "socket creation failed"

/-! ## Specification -/

namespace Spec

/-- The datagrams, when nothing fails -/
def quiet (l : List Arrival) : List Incoming := l.map .datagram

/-- What C130 asks for: whatever ends without an exception has heard all that came in time, as if nothing had failed. -/
def FailuresTold : Prop :=
  ∀ (sys : System) (clock work : Nat → Nat) (before after : List Arrival) (t : Nat) (s s' : St) (e e' : Nat),
    discoverSys sys (sendQuery clock) 65536 work 0 (quiet before ++ .fails t :: quiet after) = .ok (.ok (s, e)) →
    discoverSys sys (sendQuery clock) 65536 work 0 (quiet before ++ quiet after) = .ok (.ok (s', e')) → s.reported = s'.reported

/-- The like for the queries -/
def SendsTold : Prop :=
  ∀ (sys : System) (clock work : Nat → Nat) (l : List Arrival) (s : St) (e : Nat), discoverSys sys (sendQuery clock) 65536 work 0 (quiet l) = .ok (.ok (s, e)) →
    ∀ k, k < s.sent.length → sys.sent k = true

end Spec

/-! ## Theorems -/

theorem listenSys_quiet {sys : System} (h : ∀ k, sys.option k = true) (ask : Nat → List Bytes → St → Outcome St) (buffer : Nat) (work : Nat → Nat) :
    ∀ (l : List Arrival) (k now : Nat) (s : St), listenSys sys ask buffer work (quiet l) k now s = .ok (listen ask buffer work l k now s) := by
  intro l
  induction l with
  | nil => intro k now s; simp only [quiet, List.map_nil, listenSys, receiveSys, h, if_true]; rfl
  | cons a l ih =>
    intro k now s
    simp only [quiet, List.map_cons, listenSys, receiveSys, h, if_true, listen]
    split
    · rfl
    · cases afterReading ask (readResponse (socketReceive buffer 2000000000 now (some a)).1 s) with
      | ok s' => simp only [Outcome.bind_ok]; exact ih _ _ _
      | throws e => rfl
      | ub => rfl
      | hang => rfl

/-- **C130, a system that fails in nothing but sending.** Then the discovery is that of C102. -/
theorem C130_quiet_partial {sys : System} (hs : sys.socket = true) (h : ∀ k, sys.option k = true) (ask : Nat → List Bytes → St → Outcome St) (buffer : Nat) (work : Nat → Nat) (now : Nat)
    (l : List Arrival) : discoverSys sys ask buffer work now (quiet l) = .ok (discoverOn ask buffer work now l) := by
  unfold discoverSys discoverOn
  rw [if_pos hs]
  cases ask 12 [ascii "_ipp._tcp.local", ascii "_ipps._tcp.local"] start with
  | ok s => simp only [Outcome.bind_ok]; exact listenSys_quiet h ask buffer work l 0 now s
  | throws e => rfl
  | ub => rfl
  | hang => rfl

/-- **C130, errors that are told.** If there is no socket, or its first time limit cannot be set, the program ends with that message, whatever would arrive. -/
theorem C130_told_partial (sys : System) (clock : Nat → Nat) (buffer : Nat) (work : Nat → Nat) (now : Nat) (incoming : List Incoming) :
    (sys.socket = false → discoverSys sys (sendQuery clock) buffer work now incoming = .error "socket creation failed") ∧
    (sys.socket = true → sys.option 0 = false → discoverSys sys (sendQuery clock) buffer work now incoming = .error "setsockopt failed") := by
  refine ⟨fun h => by simp [discoverSys, h], fun h h0 => ?_⟩
  have e0 : ∃ s, sendQuery clock 12 [ascii "_ipp._tcp.local", ascii "_ipps._tcp.local"] start = .ok s := ⟨_, rfl⟩
  obtain ⟨s, hs⟩ := e0
  unfold discoverSys
  rw [if_pos h, hs]
  cases incoming with
  | nil => simp [listenSys, receiveSys, h0]; rfl
  | cons a l => simp [listenSys, receiveSys, h0]

theorem listenSys_fails {sys : System} (h : ∀ k, sys.option k = true) (ask : Nat → List Bytes → St → Outcome St) (buffer : Nat) (work : Nat → Nat) (t : Nat) (rest : List Incoming) :
    ∀ (l : List Arrival) (k now : Nat) (s : St), listenSys sys ask buffer work (quiet l ++ .fails t :: rest) k now s = .ok (listen ask buffer work (l ++ [⟨t, []⟩]) k now s) := by
  intro l
  induction l with
  | nil =>
    intro k now s
    simp only [quiet, List.map_nil, List.nil_append, listenSys, receiveSys, h, if_true, listen, socketReceive]
    by_cases e : t ≤ now + 2000000000
    · rw [if_pos e]
      simp only [List.take_nil, if_true]
      rw [Nat.min_eq_left (by omega)]
    · rw [if_neg e]
      simp only [if_true]
      rw [Nat.min_eq_right (by omega)]
  | cons a l ih =>
    intro k now s
    simp only [quiet, List.map_cons, List.cons_append, listenSys, receiveSys, h, if_true, listen]
    split
    · rfl
    · cases afterReading ask (readResponse (socketReceive buffer 2000000000 now (some a)).1 s) with
      | ok s' => simp only [Outcome.bind_ok]; exact ih _ _ _
      | throws e => rfl
      | ub => rfl
      | hang => rfl

/-- **C130, what a failure of `recvfrom` does.** The datagrams before it are dealt with as those of C102 are; then the discovery ends, as a time limit would end it, and whatever comes after is not
heard. -/
theorem C130_failure {sys : System} (hs : sys.socket = true) (h : ∀ k, sys.option k = true) (ask : Nat → List Bytes → St → Outcome St) {buffer : Nat} (hb : 65535 ≤ buffer) (work : Nat → Nat) (now : Nat)
    {heard : List Arrival} (hu : ∀ a ∈ heard, a.bytes ≠ [] ∧ a.bytes.length ≤ 65535) (ht : InTime work 0 now heard) {t : Nat} (hl : t ≤ readyAfter work 0 now heard + 2000000000)
    (rest : List Incoming) :
    discoverSys sys ask buffer work now (quiet heard ++ .fails t :: rest) =
      .ok ((discover ask (heard.map (·.bytes))).bind (fun s => .ok (s, max (readyAfter work 0 now heard) t))) := by
  rw [← C102_empty ask hb work now hu ht hl []]
  unfold discoverSys discoverOn
  rw [if_pos hs]
  cases ask 12 [ascii "_ipp._tcp.local", ascii "_ipps._tcp.local"] start with
  | ok s => simp only [Outcome.bind_ok]; exact listenSys_fails h ask buffer work t rest heard 0 now s
  | throws e => rfl
  | ub => rfl
  | hang => rfl

theorem listenSys_option {sys : System} (ask : Nat → List Bytes → St → Outcome St) {buffer : Nat} (work : Nat → Nat) (rest : List Incoming) :
    ∀ (l : List Arrival) (k now : Nat) (s : St), (∀ a ∈ l, a.bytes ≠ [] ∧ a.bytes.length ≤ buffer) → InTime work k now l → (∀ i, i < l.length → sys.option (k + i) = true) →
      sys.option (k + l.length) = false → (∃ s', receive ask (l.map (·.bytes)) s = .ok s') → listenSys sys ask buffer work (quiet l ++ rest) k now s = .error "setsockopt failed" := by
  intro l
  induction l with
  | nil =>
    intro k now s _ _ _ h _
    rw [List.length_nil, Nat.add_zero] at h
    cases rest with
    | nil => simp [quiet, listenSys, receiveSys, h]; rfl
    | cons a l => simp [quiet, listenSys, receiveSys, h]
  | cons a l ih =>
    intro k now s hu ht ho h hr
    have h0 := ho 0 (by simp)
    rw [Nat.add_zero] at h0
    have h1 := hu a List.mem_cons_self
    have h2 : socketReceive buffer 2000000000 now (some a) = (a.bytes, max now a.time) := by
      unfold socketReceive
      simp only [if_pos (InTime.head ht)]
      rw [List.take_of_length_le h1.2]
    obtain ⟨s', hr⟩ := hr
    simp only [List.map_cons, receive, Outcome.bind_eq_ok] at hr
    obtain ⟨s1, hr1, hr2⟩ := hr
    show listenSys sys ask buffer work (.datagram a :: (quiet l ++ rest)) k now s = _
    simp only [listenSys, receiveSys, h0, if_true, h2, if_neg h1.1, hr1]
    refine ih (k + 1) _ s1 (fun b hb => hu b (List.mem_cons_of_mem _ hb)) (InTime.tail ht) (fun i hi => ?_) ?_ ⟨s', hr2⟩
    · have := ho (i + 1) (by simp; omega)
      rwa [show k + 1 + i = k + (i + 1) by omega]
    · rw [List.length_cons] at h
      rwa [show k + 1 + l.length = k + (l.length + 1) by omega]

/-- **C130, `setsockopt` fails later.** Whenever it fails for the first time, if the discovery comes so far, it ends with that message. -/
theorem C130_option {sys : System} (hs : sys.socket = true) (ask : Nat → List Bytes → St → Outcome St) {buffer : Nat} (hb : 65535 ≤ buffer) (work : Nat → Nat) (now : Nat) {heard : List Arrival}
    (hu : ∀ a ∈ heard, a.bytes ≠ [] ∧ a.bytes.length ≤ 65535) (ht : InTime work 0 now heard) (ho : ∀ i, i < heard.length → sys.option i = true) (hf : sys.option heard.length = false)
    {s : St} (hd : discover ask (heard.map (·.bytes)) = .ok s) (rest : List Incoming) :
    discoverSys sys ask buffer work now (quiet heard ++ rest) = .error "setsockopt failed" := by
  unfold discover at hd
  obtain ⟨s0, h0, h1⟩ := Outcome.bind_eq_ok.mp hd
  unfold discoverSys
  rw [if_pos hs, h0]
  exact listenSys_option ask work rest heard 0 now s0 (fun a ha => ⟨(hu a ha).1, Nat.le_trans (hu a ha).2 hb⟩) ht (by simpa using ho) (by simpa using hf) ⟨s, h1⟩

/-- A system that fails in nothing -/
def good : System := ⟨true, fun _ => true, fun _ => true⟩

example : good.socket = true ∧ ∀ k, good.option k = true := ⟨rfl, fun _ => rfl⟩

/-- What is shown -/
def shownSys (sys : System) (incoming : List Incoming) : Option (List Bytes) :=
  match discoverSys sys (sendQuery fun _ => 0) 65536 (fun _ => 0) 0 incoming with
  | .ok (.ok (s, _)) => some s.reported
  | _ => none

/-- **C130 is false of the code.** If `recvfrom` fails once, the discovery ends as if nobody had answered, and a printer that answers in time is not shown. -/
theorem C130_false : ¬ FailuresTold := by
  intro h
  have h1 : shownSys good (quiet [] ++ .fails 500 :: quiet [⟨1000, announcement⟩]) = some [] := by decide +kernel
  have h2 : shownSys good (quiet [] ++ quiet [⟨1000, announcement⟩]) = some [ascii "ipp://10.0.0.1/q"] := by decide +kernel
  unfold shownSys at h1 h2
  split at h1
  · rename_i s e hs
    split at h2
    · rename_i s' e' hs'
      have := h good (fun _ => 0) (fun _ => 0) [] [⟨1000, announcement⟩] 500 s s' e e' hs hs'
      simp only [Option.some.injEq] at h1 h2
      rw [h1, h2] at this
      exact absurd this (by decide +kernel)
    · cases h2
  · cases h1

/-- **C130 is false of queries that cannot be sent.** Without a network nothing is sent, and the program ends as if there were no printers. -/
theorem C130_sends_false : ¬ SendsTold := by
  intro h
  obtain ⟨s, h1, h2⟩ : ∃ s, discoverSys ⟨true, fun _ => true, fun _ => false⟩ (sendQuery fun _ => 0) 65536 (fun _ => 0) 0 (quiet []) = .ok (.ok (s, 2000000000)) ∧ s.sent.length = 1 := ⟨_, rfl, rfl⟩
  have := h ⟨true, fun _ => true, fun _ => false⟩ (fun _ => 0) (fun _ => 0) [] s _ h1 0 (by omega)
  cases this

end Verif.Discovery
