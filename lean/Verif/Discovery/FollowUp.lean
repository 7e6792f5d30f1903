import Verif.Discovery.AnswerProps
import Verif.Discovery.Throttle
import Verif.Discovery.Secure

/-! # Theorems about responses: the printers they tell of are reported, and what they leave open is asked for -/

namespace Verif.Discovery

open Spec

/-- The program's `sendQuery`, or the one that is meant where its behaviour is undefined. -/
def Asking (clock : Nat → Nat) (ask : Nat → List Bytes → St → Outcome St) : Prop := ask = sendQuery clock ∨ ask = asMeant clock

theorem Asking.meant {clock : Nat → Nat} {ask : Nat → List Bytes → St → Outcome St} (h : Asking clock ask) :
    ∀ q a s s', ask q a s = .ok s' → s' = sendQueryMeant clock q a s := by
  intro q a s s' hs
  rcases h with rfl | rfl
  · exact sendQuery_ok hs
  · cases hs; rfl

/-- **C66, for responses of up to 4096 bytes.** Any such responses, with the records split over them and ordered in any way: a printer they tell of that is announced for `ipps` is reported, with
its port, each of its addresses and its path. -/
theorem C66_secure_partial {clock : Nat → Nat} {ask : Nat → List Bytes → St → Outcome St} (ha : Asking clock ask) {msgs : List Bytes} {rss : List (List Record)}
    (hr : Responses msgs rss) (hl : ∀ m ∈ msgs, m.length ≤ 4096) {s : St} (h : discover ask msgs = .ok s) {it : Bytes} {port : Nat} {ip path : Bytes}
    (hp : Printer rss.flatten ippsService it port ip path) : ippsUri port ip path ∈ s.reported :=
  (discover_inv ha.meant hr hl h).secure it port ip path hp

/-- **C66, for responses of up to 4096 bytes.** And one that is announced for `ipp` is reported, as such or with `ipps` for the same address and path. -/
theorem C66_plain_partial {clock : Nat → Nat} {ask : Nat → List Bytes → St → Outcome St} (ha : Asking clock ask) {msgs : List Bytes} {rss : List (List Record)}
    (hr : Responses msgs rss) (hl : ∀ m ∈ msgs, m.length ≤ 4096) {s : St} (h : discover ask msgs = .ok s) {it : Bytes} {port : Nat} {ip path : Bytes}
    (hp : Printer rss.flatten ippService it port ip path) : ippUri port ip path ∈ s.reported ∨ ∃ port', ippsUri port' ip path ∈ s.reported :=
  (discover_inv ha.meant hr hl h).plain it port ip path hp

/-- **C66, for responses of up to 4096 bytes.** Nothing else is reported: each address belongs to a printer that the first `j` responses tell of. -/
theorem C66_sound_partial {clock : Nat → Nat} {ask : Nat → List Bytes → St → Outcome St} (ha : Asking clock ask) {msgs : List Bytes} {rss : List (List Record)}
    (hr : Responses msgs rss) (hl : ∀ m ∈ msgs, m.length ≤ 4096) {s : St} (h : discover ask msgs = .ok s) {a : Bytes} (hm : a ∈ s.reported) :
    ∃ j it port ip path, (Printer (rss.take j).flatten ippsService it port ip path ∧ a = ippsUri port ip path) ∨
      (Printer (rss.take j).flatten ippService it port ip path ∧ a = ippUri port ip path) :=
  (discover_inv ha.meant hr hl h).sound a hm

/-- **C67, for responses of up to 4096 bytes.** What no response has told about an announced printer has been asked for: its description (TXT, 16) and its place (SRV, 33). -/
theorem C67_described_partial {clock : Nat → Nat} {ask : Nat → List Bytes → St → Outcome St} (ha : Asking clock ask) {msgs : List Bytes} {rss : List (List Record)}
    (hr : Responses msgs rss) (hl : ∀ m ∈ msgs, m.length ≤ 4096) {s : St} (h : discover ask msgs = .ok s) {p : Bytes}
    (hp : p ∈ pointers ippService rss.flatten ∨ p ∈ pointers ippsService rss.flatten) :
    (texts rss.flatten p = [] → ∃ Q ∈ s.sent, Q.qtype = 16 ∧ p ∈ Q.names) ∧ (services rss.flatten p = [] → ∃ Q ∈ s.sent, Q.qtype = 33 ∧ p ∈ Q.names) := by
  have := (discover_inv ha.meant hr hl h).described p hp
  exact ⟨fun hn => this.1.resolve_left (fun h => h hn), fun hn => this.2.resolve_left (fun h => h hn)⟩

/-- **C67, for responses of up to 4096 bytes.** And the address (A, 1) of every target. -/
theorem C67_located_partial {clock : Nat → Nat} {ask : Nat → List Bytes → St → Outcome St} (ha : Asking clock ask) {msgs : List Bytes} {rss : List (List Record)}
    (hr : Responses msgs rss) (hl : ∀ m ∈ msgs, m.length ≤ 4096) {s : St} (h : discover ask msgs = .ok s) {n : Bytes} {port : Nat} {t : Bytes} (ht : (port, t) ∈ services rss.flatten n)
    (hn : addresses rss.flatten t = []) : ∃ Q ∈ s.sent, Q.qtype = 1 ∧ t ∈ Q.names :=
  ((discover_inv ha.meant hr hl h).located n port t ht).resolve_left (fun h => h hn)

/-- **C67.** Whatever arrives: the first query is for the two services (PTR, 12), every query asks for something, and each is sent as the datagram for its
type and names. -/
theorem C67_queries {clock : Nat → Nat} {ask : Nat → List Bytes → St → Outcome St} (ha : Asking clock ask) {msgs : List Bytes} {s : St}
    (h : discover ask msgs = .ok s) :
    (∃ Q, s.sent.head? = some Q ∧ Q.qtype = 12 ∧ Q.names = [ippService, ippsService]) ∧
    ∀ Q ∈ s.sent, Q.names ≠ [] ∧ ∃ id, Q.datagram = makeQuery id Q.qtype Q.names := by
  have good : ∀ q a (s s' : St), ask q a s = .ok s' → (∀ Q ∈ s.sent, Q.names ≠ [] ∧ ∃ id, Q.datagram = makeQuery id Q.qtype Q.names) →
      ∀ Q ∈ s'.sent, Q.names ≠ [] ∧ ∃ id, Q.datagram = makeQuery id Q.qtype Q.names := by
    intro q a s s' hs hp Q hQ
    rw [ha.meant _ _ _ _ hs] at hQ
    unfold sendQueryMeant at hQ
    simp only [] at hQ
    split at hQ
    · exact hp Q hQ
    · rename_i hne
      rcases List.mem_append.1 hQ with hQ | hQ
      · exact hp Q hQ
      · rw [List.mem_singleton.1 hQ]; exact ⟨hne, _, rfl⟩
  refine ⟨?_, discover_ind (P := fun s => ∀ Q ∈ s.sent, Q.names ≠ [] ∧ ∃ id, Q.datagram = makeQuery id Q.qtype Q.names) nofun
    (fun s s' hs hp => by rw [hs.2.2.2.1]; exact hp) good
    (fun s hp => by rw [(update_same s).2.2.2.2.2.2.2.1]; exact hp) h⟩
  -- the first query stays the first
  have first : ∀ (Q : Query) (msgs : List Bytes) (s s' : St), s.sent.head? = some Q → receive ask msgs s = .ok s' → s'.sent.head? = some Q := by
    intro Q msgs
    induction msgs with
    | nil => intro s s' hq h; cases h; exact hq
    | cons m ms ih =>
      intro s s' hq h
      unfold receive at h
      simp only [Outcome.bind_eq_ok] at h
      obtain ⟨s1, h1, h2⟩ := h
      refine ih _ _ ?_ h2
      obtain ⟨s3, p3, rfl⟩ := afterReading_ind (P := fun s => s.sent.head? = some Q) (fun _ _ _ h => h)
        (fun q a t t' ht hp => by
          have := (meant_facts clock q a t).sent
          rw [ha.meant _ _ _ _ ht]
          obtain ⟨more, hmore⟩ := this
          rw [← hmore, List.head?_append, hp]; rfl) h1 (by rw [(readResponse_same m s).2.2.2.1]; exact hq)
      rw [(update_same s3).2.2.2.2.2.2.2.1]; exact p3
  unfold discover at h
  simp only [Outcome.bind_eq_ok] at h
  obtain ⟨s0, h0, h1⟩ := h
  have e0 := ha.meant _ _ _ _ h0
  have : s0.sent.head? = some ⟨clock 0, 12, [ippService, ippsService], makeQuery 0 12 [ippService, ippsService]⟩ := by rw [e0]; rfl
  exact ⟨_, first _ _ _ _ this h1, rfl, rfl⟩

/-! ## An example: a response with a pointer, a service, a description and an address -/

/-- A response of 117 bytes. -/
def exampleResponse : Bytes :=
  be16 0 ++ be16 0x8400 ++ be16 0 ++ be16 1 ++ be16 0 ++ be16 3 ++
  [5] ++ ascii "_ipps" ++ [4] ++ ascii "_tcp" ++ [5] ++ ascii "local" ++ [0] ++ be16 12 ++ be16 1 ++ be32 120 ++ be16 4 ++ [1, 80, 192, 12] ++
  [192, 40] ++ be16 33 ++ be16 1 ++ be32 120 ++ be16 10 ++ be16 0 ++ be16 0 ++ be16 8443 ++ [1, 104, 192, 23] ++
  [192, 40] ++ be16 16 ++ be16 1 ++ be32 120 ++ be16 23 ++ [9] ++ ascii "txtvers=1" ++ [12] ++ ascii "rp=ipp/print" ++
  [192, 62] ++ be16 1 ++ be16 1 ++ be32 120 ++ be16 4 ++ [10, 0, 0, 9]

def exampleRecords : List Record :=
  [⟨[ascii "_ipps", ascii "_tcp", ascii "local"], .ptr [ascii "P", ascii "_ipps", ascii "_tcp", ascii "local"]⟩,
   ⟨[ascii "P", ascii "_ipps", ascii "_tcp", ascii "local"], .srv 0 0 8443 [ascii "h", ascii "local"]⟩,
   ⟨[ascii "P", ascii "_ipps", ascii "_tcp", ascii "local"], .txt [ascii "txtvers=1", ascii "rp=ipp/print"]⟩,
   ⟨[ascii "h", ascii "local"], .a 10 0 0 9⟩]

theorem at_of {msg x : Bytes} {pos : Nat} (h : (msg.drop pos).take x.length = x) (hl : pos ≤ msg.length) : At msg pos x := by
  refine ⟨msg.take pos, (msg.drop pos).drop x.length, ?_, by simp; omega⟩
  rw [List.append_assoc]
  conv => lhs; rw [← List.take_append_drop pos msg]
  congr 1
  conv => lhs; rw [← List.take_append_drop x.length (msg.drop pos), h]

theorem example_response : Response exampleResponse exampleRecords := by
  have local23 : NameAt exampleResponse 23 [ascii "local"] 30 :=
    .label (l := ascii "local") (by decide +kernel) (by decide +kernel) (at_of (by decide +kernel) (by decide +kernel))
      (.root (at_of (by decide +kernel) (by decide +kernel)))
  have service : NameAt exampleResponse 12 [ascii "_ipps", ascii "_tcp", ascii "local"] 30 :=
    .label (l := ascii "_ipps") (by decide +kernel) (by decide +kernel) (at_of (by decide +kernel) (by decide +kernel))
      (.label (l := ascii "_tcp") (by decide +kernel) (by decide +kernel) (at_of (by decide +kernel) (by decide +kernel)) local23)
  have printer : NameAt exampleResponse 40 [ascii "P", ascii "_ipps", ascii "_tcp", ascii "local"] 44 :=
    .label (l := ascii "P") (by decide +kernel) (by decide +kernel) (at_of (by decide +kernel) (by decide +kernel))
      (.reference (ref := 12) (by decide) (by decide +kernel) (at_of (by decide +kernel) (by decide +kernel)) service)
  have host : NameAt exampleResponse 62 [ascii "h", ascii "local"] 66 :=
    .label (l := ascii "h") (by decide +kernel) (by decide +kernel) (at_of (by decide +kernel) (by decide +kernel))
      (.reference (ref := 23) (by decide) (by decide +kernel) (at_of (by decide +kernel) (by decide +kernel)) local23)
  refine ⟨0, 0x8400, 0, 1, 0, 3, 12, by decide, by decide, by decide, by decide, at_of (by decide +kernel) (by decide +kernel), .zero, ?_, rfl⟩
  refine .cons (stop := 44) ⟨30, 12, 4, service, ⟨by decide, 1, 120, at_of (by decide +kernel) (by decide +kernel)⟩, .ptr printer, rfl⟩ ?_
  refine .cons (stop := 66) ⟨46, 33, 10, .reference (ref := 40) (by decide) (by decide) (at_of (by decide +kernel) (by decide +kernel)) printer,
    ⟨by decide, 1, 120, at_of (by decide +kernel) (by decide +kernel)⟩, .srv (by decide) (at_of (by decide +kernel) (by decide +kernel)) host, rfl⟩ ?_
  refine .cons (stop := 101) ⟨68, 16, 23, .reference (ref := 40) (by decide) (by decide) (at_of (by decide +kernel) (by decide +kernel)) printer,
    ⟨by decide, 1, 120, at_of (by decide +kernel) (by decide +kernel)⟩,
    .txt (by decide +kernel) (at_of (by decide +kernel) (by decide +kernel)) (by decide +kernel), rfl⟩ ?_
  exact .cons (stop := 117) ⟨103, 1, 4, .reference (ref := 62) (by decide) (by decide) (at_of (by decide +kernel) (by decide +kernel)) host,
    ⟨by decide, 1, 120, at_of (by decide +kernel) (by decide +kernel)⟩, .a (at_of (by decide +kernel) (by decide +kernel)), rfl⟩ .nil

/-- The printer that these records tell of, and what a discovery that gets this response reports. -/
example : Responses [exampleResponse] [exampleRecords] ∧
    Printer [exampleRecords].flatten ippsService (ascii "P._ipps._tcp.local") 8443 (ascii "10.0.0.9") (ascii "ipp/print") ∧
    reportsOf [exampleResponse] = [ascii "ipps://10.0.0.9:8443/ipp/print"] :=
  ⟨.cons example_response .nil,
    ⟨by decide +kernel, ascii "h.local", by decide +kernel, by decide +kernel, by decide +kernel⟩, by decide +kernel⟩

/-- A pointer alone: the description and the place are asked for. -/
example : pointers ippsService [exampleRecords.take 1].flatten = [ascii "P._ipps._tcp.local"] ∧ texts [exampleRecords.take 1].flatten (ascii "P._ipps._tcp.local") = [] ∧
    services [exampleRecords.take 1].flatten (ascii "P._ipps._tcp.local") = [] := by decide +kernel

/-- A service without an address. -/
example : (8443, ascii "h.local") ∈ services [exampleRecords.take 2].flatten (ascii "P._ipps._tcp.local") ∧
    addresses [exampleRecords.take 2].flatten (ascii "h.local") = [] := by decide +kernel

example : ∃ s, discover (sendQuery (fun _ => 0)) [] = .ok s ∧ s.sent.length = 1 := ⟨_, rfl, by decide +kernel⟩

/-- All is known of the printer `it`: its port and host (from an SRV record), its path (`rp`, from a TXT record) and `ip` as one of the addresses of the
host (from an A record). Said of the tables in which the program keeps what it has read. -/
def Known (s : St) (it : Bytes) (port : Nat) (ip path : Bytes) : Prop :=
  s.ports.get? it = some port ∧ (∃ txt, s.txts.get? it = some txt ∧ txt.get? (ascii "rp") = some path) ∧
  ∃ host ips, s.targets.get? it = some host ∧ s.as.get? host = some ips ∧ ip ∈ ips

/-- **C59.** After every datagram, every printer of which all is known (where it is: SRV and A records; its path: a TXT record with rp) has been reported:
with `ipps` for each of its addresses when it was announced for `ipps`, and with `ipp` when it was announced for `ipp`, unless this datagram made it
known under `ipps` with the same address and path. -/
theorem C59_complete {clock : Nat → Nat} {msgs : List Bytes} {msg : Bytes} {s s' : St} (h : discover (sendQuery clock) msgs = .ok s)
    (h' : receive (sendQuery clock) [msg] s = .ok s') {it : Bytes} {port : Nat} {ip path : Bytes} (hk : Known s' it port ip path) :
    (it ∈ s'.ippsPtrs → ippsUri port ip path ∈ s'.reported) ∧
    (it ∈ s'.ippPtrs → ippUri port ip path ∈ s'.reported ∨ ∃ port', ippsUri port' ip path ∈ s'.reported ∧ ippsUri port' ip path ∉ s.reported) := by
  obtain ⟨h1, ⟨txt, h2, h3⟩, host, ips, h4, h5, h6⟩ := hk
  have hr : resolve s' it = some (port, ips, path) := by simp [resolve, h1, h2, h3, h4, h5]
  have := complete_resolve h h' hr h6
  simpa only [makeIppsAddr_eq, makeIppAddr_eq] using this

/-- Whether a printer is known after a first datagram and after a second. -/
def knownAfter (m1 m2 it : Bytes) (port : Nat) (ip path : Bytes) : Bool :=
  match discover (sendQuery (fun _ => 0)) [m1] with
  | .ok s => match receive (sendQuery (fun _ => 0)) [m2] s with
    | .ok s' => decide (it ∈ s'.ippsPtrs ∧ s'.ports.get? it = some port ∧ (s'.txts.get? it).bind (·.get? (ascii "rp")) = some path ∧
        ip ∈ ((s'.targets.get? it).bind (fun t => s'.as.get? t)).getD [])
    | _ => false
  | _ => false

/-- the second of two addresses of a host, told of in a second datagram -/
example : knownAfter (response (announce "_ipps" 443)) (response [record ["p", "local"] 1 [10, 0, 0, 8]]) (ascii "P._ipps._tcp.local") 443
    (ascii "10.0.0.8") (ascii "a/b") = true := by decide +kernel

/-! ## C44 -/

/-- **C44.** After any datagrams, the next one: when an address and path are reported with `ipps` because of it, they are not reported with `ipp` because of it.
Missing: the datagrams before and after (`C44_false`). -/
theorem C44_partial {clock : Nat → Nat} {msgs : List Bytes} {msg : Bytes} {s s' : St} (h : discover (sendQuery clock) msgs = .ok s)
    (h' : receive (sendQuery clock) [msg] s = .ok s') : ∃ new, s'.reported = s.reported ++ new ∧
    ∀ (a b c d : UInt8) (path : Bytes) (port port' : Nat), ippsUri port (quad a b c d) path ∈ new → ippUri port' (quad a b c d) path ∉ new := by
  obtain ⟨new, h1, h2⟩ := secure_only h h'
  refine ⟨new, h1, fun a b c d path port port' => ?_⟩
  obtain ⟨ip, _, e⟩ := get_ip (msg := [a, b, c, d]) (pos := 0) (a := a) (b := b) (c := c) (d := d) ⟨[], [], rfl, rfl⟩
  rw [← e, ← makeIppsAddr_eq, ← makeIppAddr_eq]
  exact h2 ip path port port'

/-- **C44, where it fails.** A printer that announces `ipps` in one datagram and `ipp` in the next, with the same address and path, is reported with both. -/
theorem C44_false : ¬ ∀ (clock : Nat → Nat) (msgs : List Bytes) (s : St), discover (sendQuery clock) msgs = .ok s →
    ∀ (a b c d : UInt8) (path : Bytes) (port port' : Nat), ippsUri port (quad a b c d) path ∈ s.reported → ippUri port' (quad a b c d) path ∉ s.reported := by
  intro h
  have h1 : reportsOf [response (announce "_ipps" 443), response (announce "_ipp" 631)] = [ascii "ipps://10.0.0.7/a/b", ascii "ipp://10.0.0.7/a/b"] := by
    decide +kernel
  unfold reportsOf at h1
  split at h1
  · rename_i s hs
    have := h _ _ s hs 10 0 0 7 (ascii "a/b") 443 631 (by rw [h1]; decide +kernel)
    rw [h1] at this
    exact this (by decide +kernel)
  · cases h1

/-! ## Where it fails: references to places behind the first 4096 bytes -/

def padding : Bytes := List.replicate 4096 0

/-- What comes before the 4096 bytes ... -/
def longFront (additional : Nat) : Bytes :=
  [be16 0, be16 0x8400, be16 0, be16 1, be16 0, be16 additional, [0], be16 41, be16 1, be32 120, be16 4096].flatten

/-- ... and behind them: the same records as above. -/
def longRest : Bytes :=
  [[5], ascii "_ipps", [4], ascii "_tcp", [5], ascii "local", [0], be16 12, be16 1, be32 120, be16 4, [1, 80], be16 (49152 + 4119),
   be16 (49152 + 4147), be16 33, be16 1, be32 120, be16 10, be16 0, be16 0, be16 8443, [1, 104], be16 (49152 + 4130),
   be16 (49152 + 4147), be16 16, be16 1, be32 120, be16 23, [9], ascii "txtvers=1", [12], ascii "rp=ipp/print",
   be16 (49152 + 4169), be16 1, be16 1, be32 120, be16 4, [10, 0, 0, 9]].flatten

/-- The response above with a record of 4096 bytes in front. -/
def longResponse (additional : Nat) : Bytes := longFront additional ++ (padding ++ longRest)

def longRecords (rs : List Record) : List Record := ⟨[], .other 41 padding⟩ :: rs

theorem at_front {n pos : Nat} {x : Bytes} (h : At (longFront n) pos x) : At (longResponse n) pos x := h.mono

theorem at_rest {n : Nat} (p : Nat) {x : Bytes} (h : (longRest.drop p).take x.length = x ∧ p ≤ longRest.length) : At (longResponse n) (4119 + p) x := by
  obtain ⟨a, b, hab, hl⟩ := at_of h.1 h.2
  refine ⟨longFront n ++ padding ++ a, b, ?_, ?_⟩
  · unfold longResponse; rw [hab]; simp
  · rw [List.length_append, List.length_append, hl]
    unfold padding
    rw [List.length_replicate]
    rfl

theorem long_response (n : Nat) (hn : n = 1 ∨ n = 4) : Response (longResponse n) (longRecords (exampleRecords.take n)) := by
  have local23 : NameAt (longResponse n) 4130 [ascii "local"] 4137 :=
    .label (l := ascii "local") (by decide +kernel) (by decide +kernel) (at_rest 11 (by decide +kernel)) (.root (at_rest 17 (by decide +kernel)))
  have service : NameAt (longResponse n) 4119 [ascii "_ipps", ascii "_tcp", ascii "local"] 4137 :=
    .label (l := ascii "_ipps") (by decide +kernel) (by decide +kernel) (at_rest 0 (by decide +kernel))
      (.label (l := ascii "_tcp") (by decide +kernel) (by decide +kernel) (at_rest 6 (by decide +kernel)) local23)
  have printer : NameAt (longResponse n) 4147 [ascii "P", ascii "_ipps", ascii "_tcp", ascii "local"] 4151 :=
    .label (l := ascii "P") (by decide +kernel) (by decide +kernel) (at_rest 28 (by decide +kernel))
      (.reference (ref := 4119) (by decide) (by decide +kernel) (at_rest 30 (by decide +kernel)) service)
  have host : NameAt (longResponse n) 4169 [ascii "h", ascii "local"] 4173 :=
    .label (l := ascii "h") (by decide +kernel) (by decide +kernel) (at_rest 50 (by decide +kernel))
      (.reference (ref := 4130) (by decide) (by decide +kernel) (at_rest 52 (by decide +kernel)) local23)
  have r0 : RecordAt (longResponse n) 12 ⟨[], .other 41 padding⟩ 4119 :=
    ⟨13, 41, 4096, .root (at_front ⟨[be16 0, be16 0x8400, be16 0, be16 1, be16 0, be16 n].flatten, _, rfl, rfl⟩),
      ⟨by decide, 1, 120, at_front ⟨[be16 0, be16 0x8400, be16 0, be16 1, be16 0, be16 n, [0]].flatten, [], rfl, rfl⟩⟩,
      .other (by decide) (by decide) (by decide) (by decide) (by decide) ⟨longFront n, longRest, by unfold longResponse; simp, rfl⟩
        (by unfold padding; exact List.length_replicate), rfl⟩
  have r1 : RecordAt (longResponse n) 4119 ⟨[ascii "_ipps", ascii "_tcp", ascii "local"], .ptr [ascii "P", ascii "_ipps", ascii "_tcp", ascii "local"]⟩ 4151 :=
    ⟨4137, 12, 4, service, ⟨by decide, 1, 120, at_rest 18 (by decide +kernel)⟩, .ptr printer, rfl⟩
  have r2 : RecordAt (longResponse n) 4151 ⟨[ascii "P", ascii "_ipps", ascii "_tcp", ascii "local"], .srv 0 0 8443 [ascii "h", ascii "local"]⟩ 4173 :=
    ⟨4153, 33, 10, .reference (ref := 4147) (by decide) (by decide) (at_rest 32 (by decide +kernel)) printer,
      ⟨by decide, 1, 120, at_rest 34 (by decide +kernel)⟩, .srv (by decide) (at_rest 44 (by decide +kernel)) host, rfl⟩
  have r3 : RecordAt (longResponse n) 4173 ⟨[ascii "P", ascii "_ipps", ascii "_tcp", ascii "local"], .txt [ascii "txtvers=1", ascii "rp=ipp/print"]⟩ 4208 :=
    ⟨4175, 16, 23, .reference (ref := 4147) (by decide) (by decide) (at_rest 54 (by decide +kernel)) printer,
      ⟨by decide, 1, 120, at_rest 56 (by decide +kernel)⟩, .txt (by decide +kernel) (at_rest 66 (by decide +kernel)) (by decide +kernel), rfl⟩
  have r4 : RecordAt (longResponse n) 4208 ⟨[ascii "h", ascii "local"], .a 10 0 0 9⟩ 4224 :=
    ⟨4210, 1, 4, .reference (ref := 4169) (by decide) (by decide) (at_rest 89 (by decide +kernel)) host,
      ⟨by decide, 1, 120, at_rest 91 (by decide +kernel)⟩, .a (at_rest 101 (by decide +kernel)), rfl⟩
  refine ⟨0, 0x8400, 0, 1, 0, n, 12, by decide, by decide, by decide, by omega,
    at_front ⟨[], [[0], be16 41, be16 1, be32 120, be16 4096].flatten, rfl, rfl⟩, .zero, ?_, ?_⟩
  · rcases hn with rfl | rfl
    · exact .cons r0 (.cons r1 .nil)
    · exact .cons r0 (.cons r1 (.cons r2 (.cons r3 (.cons r4 .nil))))
  · rcases hn with rfl | rfl <;> rfl

/-- **C66, where it fails.** In longer responses the references are cut to 12 bits, and a printer is not found. -/
theorem C66_long_false : ¬ ∀ (clock : Nat → Nat) (msgs : List Bytes) (rss : List (List Record)), Responses msgs rss → ∀ s, discover (sendQuery clock) msgs = .ok s →
    ∀ it port ip path, Printer rss.flatten ippsService it port ip path → ippsUri port ip path ∈ s.reported := by
  intro h
  have h1 : (match discover (sendQuery (fun _ => 0)) [longResponse 4] with
    | .ok s => decide (s.reported = [])
    | _ => false) = true := by decide +kernel
  split at h1
  · rename_i s hs
    have := h _ _ _ (.cons (long_response 4 (.inr rfl)) .nil) s hs (ascii "P._ipps._tcp.local") 8443 (ascii "10.0.0.9") (ascii "ipp/print")
      ⟨by decide +kernel, ascii "h.local", by decide +kernel, by decide +kernel, by decide +kernel⟩
    rw [of_decide_eq_true h1] at this
    cases this
  · cases h1

/-- **C67, where it fails.** And what is left open is not asked for. -/
theorem C67_long_false : ¬ ∀ (clock : Nat → Nat) (msgs : List Bytes) (rss : List (List Record)), Responses msgs rss → ∀ s, discover (sendQuery clock) msgs = .ok s →
    ∀ p ∈ pointers ippsService rss.flatten, texts rss.flatten p = [] → ∃ Q ∈ s.sent, Q.qtype = 16 ∧ p ∈ Q.names := by
  intro h
  have h1 : (match discover (sendQuery (fun _ => 0)) [longResponse 1] with
    | .ok s => s.sent.all (fun Q => !Q.names.contains (ascii "P._ipps._tcp.local"))
    | _ => false) = true := by decide +kernel
  split at h1
  · rename_i s hs
    obtain ⟨Q, hQ, -, hn⟩ := h _ _ _ (.cons (long_response 1 (.inl rfl)) .nil) s hs (ascii "P._ipps._tcp.local") (by decide +kernel) (by decide +kernel)
    have := List.all_eq_true.1 h1 Q hQ
    rw [List.contains_iff_mem.2 hn] at this
    cases this
  · cases h1

end Verif.Discovery
