import Verif.Discovery.Again
import Verif.Discovery.Exact

/-!
# Datagrams that are no answers, lib/ippdiscovery.cpp 265-394 (C128)

The flags of a datagram and the time to live of a record are read (lines 277 and 294) and not used.
-/

namespace Verif.Discovery

namespace Spec

/-- An answer without error: bit QR is set, opcode and response code are zero (RFC 6762, 18.2, 18.3 and 18.11). -/
def IsAnswer (datagram : Bytes) : Prop :=
  ∃ b c : UInt8, datagram[2]? = some b ∧ datagram[3]? = some c ∧ 128 ≤ b.toNat ∧ b.toNat / 8 % 16 = 0 ∧ c.toNat % 16 = 0

/-- A datagram that has a whole header and says there that it has no records, as a query for which nothing is known yet. -/
def NoRecords (datagram : Bytes) : Prop := 12 ≤ datagram.length ∧ ∀ i, 6 ≤ i → i < 12 → datagram[i]? = some 0

/-- What C128 asks for: a datagram that is no answer brings nothing to report. -/
def OnlyAnswersCount : Prop :=
  ∀ (clock : Nat → Nat) (msgs : List Bytes) (msg : Bytes) (s s' : St), ¬ IsAnswer msg → discover (sendQuery clock) msgs = .ok s →
    discover (sendQuery clock) (msgs ++ [msg]) = .ok s' → s'.reported = s.reported

end Spec

open Verif.Discovery.Spec

theorem get16_zero {msg : Bytes} {i : Nat} (h0 : msg[i]? = some 0) (h1 : msg[i + 1]? = some 0) : get16 msg i = .ok (0, i + 2) := by
  obtain ⟨l1, g1⟩ := List.getElem?_eq_some_iff.mp h1
  obtain ⟨l0, g0⟩ := List.getElem?_eq_some_iff.mp h0
  refine get16_at (n := 0) ⟨msg.take i, msg.drop (i + 2), ?_, by rw [List.length_take]; omega⟩
  have e : msg.drop i = 0 :: 0 :: msg.drop (i + 2) := by rw [List.drop_eq_getElem_cons l0, List.drop_eq_getElem_cons l1, g0, g1]
  have e' := (List.take_append_drop i msg).symm
  rw [e] at e'
  rw [List.append_assoc]
  exact e'

/-- A datagram without records is read as nothing, whatever its questions are. -/
theorem readResponse_no_records {msg : Bytes} (h : NoRecords msg) (s : St) : ∃ p, readResponse msg s = ⟨s, [], [], [], p⟩ := by
  have h' := h.2
  unfold readResponse
  simp only
  split
  · rename_i total p hh
    simp only [Outcome.bind_eq_ok] at hh
    obtain ⟨q, -, an, ha, au, hu, ad, hd, p', -, e⟩ := hh
    rw [get16_zero (h' 6 (by omega) (by omega)) (h' 7 (by omega) (by omega))] at ha
    rw [get16_zero (h' 8 (by omega) (by omega)) (h' 9 (by omega) (by omega))] at hu
    rw [get16_zero (h' 10 (by omega) (by omega)) (h' 11 (by omega) (by omega))] at hd
    cases ha; cases hu; cases hd; cases e
    exact ⟨_, rfl⟩
  · exact ⟨12, rfl⟩

theorem receive_no_records {clock : Nat → Nat} {msg : Bytes} (h : NoRecords msg) (msgs : List Bytes) (s : St) :
    receive (sendQuery clock) (msg :: msgs) s = receive (sendQuery clock) msgs (update s) := by
  obtain ⟨p, e⟩ := readResponse_no_records h s
  simp only [receive, e, afterReading, updateAndQueryPtrs, Outcome.bind_ok, List.filter_nil, if_true]
  rfl

/-- **C128, for datagrams without records** (queries of others, who know no answer yet). At any point of a discovery nothing is sent for them and nothing is learnt from them; what is reported
then was known before. -/
theorem C128_learns_partial {clock : Nat → Nat} {msg : Bytes} (h : NoRecords msg) (s : St) :
    ∃ s', receive (sendQuery clock) [msg] s = .ok s' ∧ s'.sent = s.sent ∧ s'.transactionId = s.transactionId ∧ s'.outstanding = s.outstanding ∧ Remains s s' ∧
      ∀ a ∈ s'.reported, a ∈ s.reported ∨ Src s a := by
  refine ⟨update s, by rw [receive_no_records h]; rfl, ?_, ?_, ?_, ?_, update_src s⟩
  · exact update_ind (P := fun x => x.sent = s.sent) (fun _ _ _ h => h) s rfl
  · exact update_ind (P := fun x => x.transactionId = s.transactionId) (fun _ _ _ h => h) s rfl
  · exact update_ind (P := fun x => x.outstanding = s.outstanding) (fun _ _ _ h => h) s rfl
  · exact update_ind (P := fun x => Remains s x) (fun _ _ _ h => ⟨h.ipp, h.ipps, h.ports, h.targets, h.described, h.values, h.addresses⟩) s
      ⟨rfl, rfl, fun _ => rfl, fun _ => rfl, fun _ => rfl, fun _ _ => rfl, fun _ _ => Iff.rfl⟩

/-- **C128, for datagrams without records.** However many of them arrive, whatever they ask for, the discovery is as it was after its first query: nothing is reported and nothing else sent. -/
theorem C128_quiet_partial (clock : Nat → Nat) {msgs : List Bytes} (h : ∀ m ∈ msgs, NoRecords m) :
    ∃ s, discover (sendQuery clock) msgs = .ok s ∧ s.reported = [] ∧ s.sent.length = 1 ∧ discover (sendQuery clock) [] = .ok s := by
  have e0 : sendQuery clock 12 [ascii "_ipp._tcp.local", ascii "_ipps._tcp.local"] start = .ok (sendQueryMeant clock 12 [ascii "_ipp._tcp.local", ascii "_ipps._tcp.local"] start) := by
    unfold sendQuery; rfl
  have f := meant_facts clock 12 [ascii "_ipp._tcp.local", ascii "_ipps._tcp.local"] start
  have hu : update (sendQueryMeant clock 12 [ascii "_ipp._tcp.local", ascii "_ipps._tcp.local"] start) = sendQueryMeant clock 12 [ascii "_ipp._tcp.local", ascii "_ipps._tcp.local"] start := by
    unfold update
    rw [f.ipp, f.ipps]
    rfl
  refine ⟨_, ?_, f.same.reported, ?_, ?_⟩
  · unfold discover
    rw [e0, Outcome.bind_ok]
    induction msgs with
    | nil => rfl
    | cons m l ih => rw [receive_no_records (h m List.mem_cons_self), hu]; exact ih fun x hx => h x (List.mem_cons_of_mem _ hx)
  · rfl
  · unfold discover
    rw [e0, Outcome.bind_ok]
    rfl

/-- A query of another host for printers. -/
def plainQuery : Bytes := be16 0 ++ be16 0 ++ be16 1 ++ be16 0 ++ be16 0 ++ be16 0 ++ plainName ["_ipp", "_tcp", "local"] ++ be16 12 ++ be16 1

/-- it is one of those, and is no answer -/
example : NoRecords plainQuery ∧ ¬ IsAnswer plainQuery := by
  refine ⟨⟨by decide +kernel, fun i h1 h2 => ?_⟩, ?_⟩
  · have : i = 6 ∨ i = 7 ∨ i = 8 ∨ i = 9 ∨ i = 10 ∨ i = 11 := by omega
    rcases this with rfl | rfl | rfl | rfl | rfl | rfl <;> decide +kernel
  · rintro ⟨b, c, hb, -, h, -⟩
    have : plainQuery[2]? = some 0 := by decide +kernel
    rw [this] at hb
    cases hb
    exact absurd h (by decide)

/-- A probe: a query that has in its authority section the records a host would like to have (RFC 6762, 8.1). -/
def probe (rs : List Bytes) : Bytes := be16 0 ++ be16 0 ++ be16 0 ++ be16 0 ++ be16 rs.length ++ be16 0 ++ rs.flatten

/-- **C128 is false of the code.** A probe for the records of a printer is taken for the announcement of one. -/
theorem C128_false : ¬ OnlyAnswersCount := by
  intro h
  have h1 : reportsOf [] = [] := by decide +kernel
  have h2 : reportsOf [probe (announce "_ipp" 631)] = [ascii "ipp://10.0.0.7/a/b"] := by decide +kernel
  have ok := C53_short_partial (clock := fun _ => 0) (fun _ _ _ => Nat.le_refl _) (fun _ => Nat.zero_le _)
  obtain ⟨s, hs⟩ := ok []
  obtain ⟨s', hs'⟩ := ok [probe (announce "_ipp" 631)]
  have := h (fun _ => 0) [] (probe (announce "_ipp" 631)) s s' ?_ hs hs'
  · unfold reportsOf at h1 h2
    rw [hs] at h1
    rw [hs'] at h2
    simp only at h1 h2
    rw [h1, h2] at this
    exact absurd this (by decide +kernel)
  · rintro ⟨b, c, hb, -, h, -⟩
    have : (probe (announce "_ipp" 631))[2]? = some 0 := by decide +kernel
    rw [this] at hb
    cases hb
    exact absurd h (by decide)

/-- A record with which a host says that it goes: its time to live is zero (RFC 6762, 10.1). -/
def farewell (name : List String) (type : Nat) (data : Bytes) : Bytes := plainName name ++ be16 type ++ be16 1 ++ be32 0 ++ be16 data.length ++ data

/-- **C128 is false of records that are taken back.** A printer that is switched off as the discovery begins, and takes all of its records back, is reported as a printer that is there. -/
theorem C128_goodbye_false : reportsOf [response [farewell ["_ipp", "_tcp", "local"] 12 (plainName ["P", "_ipp", "_tcp", "local"]),
      farewell ["P", "_ipp", "_tcp", "local"] 33 (be16 0 ++ be16 0 ++ be16 631 ++ plainName ["p", "local"]),
      farewell ["P", "_ipp", "_tcp", "local"] 16 (be8 6 ++ ascii "rp=a/b"),
      farewell ["p", "local"] 1 [10, 0, 0, 7]]] = [ascii "ipp://10.0.0.7/a/b"] := by
  decide +kernel

end Verif.Discovery
