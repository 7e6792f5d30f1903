import Verif.Discovery.Socket
import Verif.Discovery.Garbage

/-! # Datagrams that are longer than the buffer they are received in (C119) -/

namespace Verif.Discovery

open Verif.Discovery.Spec Verif.Tools

theorem listen_cut (ask : Nat → List Bytes → St → Outcome St) {buffer : Nat} (hb : 0 < buffer) (work : Nat → Nat) {k now : Nat} {heard rest : List Arrival} (s : St)
    (ht : InTime work k now heard) (hn : ∀ a ∈ heard, a.bytes ≠ [])
    (hr : ∀ a, rest.head? = some a → a.bytes ≠ [] → readyAfter work k now heard + 2000000000 < a.time) :
    listen ask buffer work (heard ++ rest) k now s =
      (receive ask (heard.map (fun a => a.bytes.take buffer)) s).bind (fun s' => .ok (s', endsAt (readyAfter work k now heard) rest)) := by
  induction heard generalizing k now s with
  | nil =>
    simp only [List.nil_append, readyAfter] at hr ⊢
    cases rest with
    | nil => rfl
    | cons a rest =>
      show (if (socketReceive buffer 2000000000 now (some a)).1 = [] then _ else _) = _
      by_cases h : a.time ≤ now + 2000000000
      · have h0 : a.bytes = [] := Decidable.byContradiction fun hne => by
          have := hr a rfl hne
          omega
        simp [socketReceive, h, h0, receive, endsAt]
        rfl
      · simp [socketReceive, h, receive, endsAt]
        rfl
  | cons a heard ih =>
    have h1 : a.bytes.take buffer ≠ [] := by
      have := hn a List.mem_cons_self
      intro e
      rcases List.take_eq_nil_iff.1 e with h | h
      · omega
      · exact this h
    have h2 : socketReceive buffer 2000000000 now (some a) = (a.bytes.take buffer, max now a.time) := by
      unfold socketReceive
      simp only [if_pos (InTime.head ht)]
    show (if (socketReceive buffer 2000000000 now (some a)).1 = [] then _ else _) = _
    rw [h2]
    simp only [if_neg h1, List.map_cons, receive]
    cases afterReading ask (readResponse (a.bytes.take buffer) s) with
    | ok s' => exact ih s' (InTime.tail ht) (fun b hb => hn b (List.mem_cons_of_mem _ hb)) hr
    | throws e => rfl
    | ub => rfl
    | hang => rfl

/-- **C119, a short buffer.** Whatever the size of the buffer that datagrams are received in: those that arrive in time (as in C102) are dealt with as if they had been sent cut off
at that size. So of a response (up to 4096 bytes) the records that fit in as a whole are taken, and exactly the printers reported that the records taken tell of. -/
theorem C119_buffer {clock : Nat → Nat} {ask : Nat → List Bytes → St → Outcome St} (ha : Asking clock ask) {buffer : Nat} (hb : 0 < buffer) (work : Nat → Nat) (now : Nat)
    {heard rest : List Arrival} (hu : ∀ a ∈ heard, a.bytes ≠ []) (ht : InTime work 0 now heard)
    (hr : ∀ a, rest.head? = some a → readyAfter work 0 now heard + 2000000000 < a.time) {s : St} {ended : Nat}
    (h : discoverOn ask buffer work now (heard ++ rest) = .ok (s, ended)) :
    ended = readyAfter work 0 now heard + 2000000000 ∧ ∃ rss, TellAll (heard.map (fun a => a.bytes.take buffer)) rss ∧
      (∀ it port ip path, Printer rss.flatten ippsService it port ip path → ippsUri port ip path ∈ s.reported) ∧
      (∀ it port ip path, Printer rss.flatten ippService it port ip path →
        ippUri port ip path ∈ s.reported ∨ ∃ port', ippsUri port' ip path ∈ s.reported) ∧
      (∀ a ∈ s.reported, ∃ j it port ip path, (Printer (rss.take j).flatten ippsService it port ip path ∧ a = ippsUri port ip path) ∨
        (Printer (rss.take j).flatten ippService it port ip path ∧ a = ippUri port ip path)) := by
  have e : discoverOn ask buffer work now (heard ++ rest) =
      (discover ask (heard.map (fun a => a.bytes.take buffer))).bind (fun s => .ok (s, readyAfter work 0 now heard + 2000000000)) := by
    unfold discoverOn discover
    cases ask 12 [ascii "_ipp._tcp.local", ascii "_ipps._tcp.local"] start with
    | ok s =>
      simp only [Outcome.bind_ok]
      rw [listen_cut ask hb work s ht hu (fun a ha _ => hr a ha)]
      cases rest with
      | nil => rfl
      | cons a rest =>
        have := hr a rfl
        simp only [endsAt]
        rw [if_neg (by omega)]
    | throws e => rfl
    | ub => rfl
    | hang => rfl
  rw [e] at h
  cases hd : discover ask (heard.map (fun a => a.bytes.take buffer)) with
  | ok s' =>
    rw [hd] at h
    cases h
    obtain ⟨rss, h1, h2, h3, h4, -⟩ := C119_any ha hd
    exact ⟨rfl, rss, h1, h2, h3, h4⟩
  | throws e => rw [hd] at h; cases h
  | ub => rw [hd] at h; cases h
  | hang => rw [hd] at h; cases h

/-- In a buffer of 100 bytes the response does not fit, and the printer is not found; in one of 117 it is. -/
example : (match discoverOn (sendQuery fun _ => 0) 100 (fun _ => 0) 0 [⟨1000, exampleResponse⟩] with | .ok (s, _) => s.reported | _ => [[]]) = [] ∧
    (match discoverOn (sendQuery fun _ => 0) 117 (fun _ => 0) 0 [⟨1000, exampleResponse⟩] with | .ok (s, _) => s.reported | _ => [[]]) =
      [ascii "ipps://10.0.0.9:8443/ipp/print"] ∧
    InTime (fun _ => 0) 0 0 [⟨1000, exampleResponse⟩] := by
  refine ⟨by decide +kernel, by decide +kernel, fun before a after e => ?_⟩
  cases before with
  | nil => cases e; decide
  | cons b before => cases before <;> cases e

end Verif.Discovery
