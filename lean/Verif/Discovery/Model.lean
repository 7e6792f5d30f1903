import Verif.Core.KMap
import Verif.Text.Model

/-!
# Model of printer discovery (lib/ippdiscovery.cpp)

A received datagram is a byte string with a read position. Datagrams are shorter than 65536 bytes (UDP), so the 16-bit `pos_before` of line 295 is
the position. Reading past the end throws `out_of_range`, wherever the position was set to before. The clock is an input: the time, in
nanoseconds since the epoch, at each call of `sendQuery`. What is written to stderr is in `Complaints.lean`, the log is not modelled.
-/

namespace Verif.Discovery

open Verif.Text (joinString splitString endsWith)

/-! ## Names, lines 67-96 -/

/-- `bts.get<uint8_t>()` at a position. -/
def get8 (msg : Bytes) (pos : Nat) : Outcome (Nat × Nat) := do
  let p ← rd8 (msg.drop pos)
  pure (p.1, pos + 1)

/-- `bts.get<uint16_t>()` at a position. -/
def get16 (msg : Bytes) (pos : Nat) : Outcome (Nat × Nat) := do
  let p ← rd16 (msg.drop pos)
  pure (p.1, pos + 2)

/-- `bts.get<uint32_t>()` at a position. -/
def get32 (msg : Bytes) (pos : Nat) : Outcome (Nat × Nat) := do
  let p ← rd32 (msg.drop pos)
  pure (p.1, pos + 4)

/-- `bts.getString(bts.get<uint8_t>())` at a position, lines 87 and 315. -/
def getLabel (msg : Bytes) (pos : Nat) : Outcome (Bytes × Nat) := do
  let l ← get8 msg pos
  let s ← rdBytes l.1 (msg.drop l.2)
  pure (s.1, l.2 + l.1)

/-- `get_addr`, lines 67-91: how it runs on the message `msg`, from position `pos`, with the references `seen`. There is a derivation for a result exactly if the
function comes to an end with that result (the labels and the position behind the name, or an exception). -/
inductive GetAddr (msg : Bytes) : Nat → List Nat → Outcome (List Bytes × Nat) → Prop
  /-- line 70: a zero byte -/
  | root {pos : Nat} {seen : List Nat} : rd8 (msg.drop pos) = .ok (0, msg.drop (pos + 1)) → GetAddr msg pos seen (.ok ([], pos + 1))
  /-- line 72: nothing there -/
  | short {pos : Nat} {seen : List Nat} : msg.drop pos = [] → GetAddr msg pos seen (.throws .outOfRange)
  /-- line 74: only half of a reference -/
  | half {pos b : Nat} {seen : List Nat} : rd8 (msg.drop pos) = .ok (b, msg.drop (pos + 1)) → b / 64 = 3 → get16 msg pos = .throws .outOfRange →
      GetAddr msg pos seen (.throws .outOfRange)
  /-- lines 75-78 -/
  | circular {pos b ref p : Nat} {seen : List Nat} : rd8 (msg.drop pos) = .ok (b, msg.drop (pos + 1)) → b / 64 = 3 → get16 msg pos = .ok (ref, p) →
      ref % 4096 ∈ seen → GetAddr msg pos seen (.throws .logicError)
  /-- lines 79-83 -/
  | reference {pos b ref p p' : Nat} {seen : List Nat} {addr : List Bytes} : rd8 (msg.drop pos) = .ok (b, msg.drop (pos + 1)) → b / 64 = 3 →
      get16 msg pos = .ok (ref, p) → ref % 4096 ∉ seen → GetAddr msg (ref % 4096) (ref % 4096 :: seen) (.ok (addr, p')) →
      GetAddr msg pos seen (.ok (addr, p))
  | referenceThrows {pos b ref p : Nat} {seen : List Nat} {e : Exn} : rd8 (msg.drop pos) = .ok (b, msg.drop (pos + 1)) → b / 64 = 3 →
      get16 msg pos = .ok (ref, p) → ref % 4096 ∉ seen → GetAddr msg (ref % 4096) (ref % 4096 :: seen) (.throws e) →
      GetAddr msg pos seen (.throws e)
  /-- line 87 -/
  | label {pos b p : Nat} {seen : List Nat} {l : Bytes} {addr : List Bytes} {p' : Nat} : rd8 (msg.drop pos) = .ok (b, msg.drop (pos + 1)) → b ≠ 0 → b / 64 ≠ 3 →
      getLabel msg pos = .ok (l, p) → GetAddr msg p seen (.ok (addr, p')) → GetAddr msg pos seen (.ok (l :: addr, p'))
  | labelThrows {pos b : Nat} {seen : List Nat} {e : Exn} : rd8 (msg.drop pos) = .ok (b, msg.drop (pos + 1)) → b ≠ 0 → b / 64 ≠ 3 →
      getLabel msg pos = .throws e → GetAddr msg pos seen (.throws e)
  | restThrows {pos b p : Nat} {seen : List Nat} {l : Bytes} {e : Exn} : rd8 (msg.drop pos) = .ok (b, msg.drop (pos + 1)) → b ≠ 0 → b / 64 ≠ 3 →
      getLabel msg pos = .ok (l, p) → GetAddr msg p seen (.throws e) → GetAddr msg pos seen (.throws e)

/-- `get_addr` as a function that makes at most `fuel` rounds of its loop, in all its recursive calls. -/
def getAddrN (msg : Bytes) : Nat → Nat → List Nat → Outcome (List Bytes × Nat)
  | 0, _, _ => .hang
  | fuel + 1, pos, seen =>
    match msg.drop pos with
    | [] => .throws .outOfRange
    | b :: _ =>
      if b.toNat = 0 then .ok ([], pos + 1)
      else if b.toNat / 64 = 3 then
        match get16 msg pos with
        | .ok (ref, p) =>
          if ref % 4096 ∈ seen then .throws .logicError
          else match getAddrN msg fuel (ref % 4096) (ref % 4096 :: seen) with
            | .ok (addr, _) => .ok (addr, p)
            | .throws e => .throws e
            | .ub => .ub
            | .hang => .hang
        | .throws e => .throws e
        | .ub => .ub
        | .hang => .hang
      else
        match getLabel msg pos with
        | .ok (l, p) =>
          match getAddrN msg fuel p seen with
          | .ok (addr, p') => .ok (l :: addr, p')
          | .throws e => .throws e
          | .ub => .ub
          | .hang => .hang
        | .throws e => .throws e
        | .ub => .ub
        | .hang => .hang

/-- `get_addr`, lines 67-91. The number of rounds is enough for every message (`getAddr_runs`). -/
def getAddr (msg : Bytes) (pos : Nat) : Outcome (List Bytes × Nat) := getAddrN msg (4097 * (msg.length + 2)) pos []

/-- `get_addr_str`, lines 93-96 -/
def getAddrStr (msg : Bytes) (pos : Nat) : Outcome (Bytes × Nat) := do
  let a ← getAddr msg pos
  pure (joinString [46] a.1, a.2)

/-! ## Addresses, lines 42-65 -/

/-- `std::to_string` of a number that is not negative -/
def decimal (n : Nat) : Bytes := ascii (toString n)

/-- `ip4str`, lines 42-48 -/
def ip4str (ip : Nat) : Bytes :=
  decimal (ip / 16777216 % 256) ++ [46] ++ decimal (ip / 65536 % 256) ++ [46] ++ decimal (ip / 256 % 256) ++ [46] ++ decimal (ip % 256)

/-- `make_addr`, lines 50-55 -/
def makeAddr (proto : Bytes) (defaultPort port : Nat) (ip rp : Bytes) : Bytes :=
  proto ++ ascii "://" ++ ip ++ (if port ≠ defaultPort then ascii ":" ++ decimal port else []) ++ ascii "/" ++ rp

/-- `make_ipp_addr`, lines 57-60 -/
def makeIppAddr (port : Nat) (ip rp : Bytes) : Bytes := makeAddr (ascii "ipp") 631 port ip rp

/-- `make_ipps_addr`, lines 62-65 -/
def makeIppsAddr (port : Nat) (ip rp : Bytes) : Bytes := makeAddr (ascii "ipps") 443 port ip rp

/-! ## Queries, lines 107-175 -/

/-- `suffixPositions`: the first entry for a suffix counts; nothing is ever entered twice. -/
def position : List (Bytes × Nat) → Bytes → Option Nat
  | [], _ => none
  | (k, v) :: r, s => if k = s then some v else position r s

/-- Lines 145-167 for the parts of a name that are left: the query so far and the positions of suffixes in it. -/
def putName : List Bytes → Bytes → List (Bytes × Nat) → Bytes × List (Bytes × Nat)
  | [], q, sp => (q ++ be8 0, sp)
  | part :: parts, q, sp =>
    match position sp (joinString [46] (part :: parts)) with
    | some p => (q ++ be16 (49152 + p % 4096), sp)
    | none => putName parts (q ++ be8 part.length ++ part) (sp ++ [(joinString [46] (part :: parts), q.length % 65536)])

/-- Lines 141-171: the questions. -/
def putQuestions (qtype : Nat) : List Bytes → Bytes → List (Bytes × Nat) → Bytes
  | [], q, _ => q
  | addr :: addrs, q, sp =>
    let p := putName (splitString [46] addr) q sp
    putQuestions qtype addrs (p.1 ++ be16 qtype ++ be16 1) p.2

/-- Lines 133-171: the datagram. -/
def makeQuery (id qtype : Nat) (addrs : List Bytes) : Bytes :=
  putQuestions qtype addrs (be16 id ++ be16 0 ++ be16 addrs.length ++ be16 0 ++ be16 0 ++ be16 0) []

/-- A query that has been sent: the time, the type, the names and the datagram. -/
structure Query where
  time : Nat
  qtype : Nat
  names : List Bytes
  datagram : Bytes
  deriving DecidableEq, Repr

/-- The members of `IppDiscovery`, lib/ippdiscovery.h 31-47, what it has reported through `_callback`, and what it has sent. `outstanding` is
`_outstandingQueries`, in the order of insertion (the order has no effect). -/
structure St where
  transactionId : Nat
  ippPtrs : List Bytes
  ippsPtrs : List Bytes
  txts : KMap (KMap Bytes)
  ports : KMap Nat
  targets : KMap Bytes
  as : KMap (List Bytes)
  outstanding : List ((Nat × Bytes) × Nat)
  found : List Bytes
  reported : List Bytes
  sent : List Query
  /-- number of calls of `sendQuery` so far -/
  calls : Nat
  deriving DecidableEq, Repr

/-- After the constructor. -/
def start : St :=
  { transactionId := 0, ippPtrs := [], ippsPtrs := [], txts := [], ports := [], targets := [], as := [], outstanding := [], found := [],
    reported := [], sent := [], calls := 0 }

/-- `to_time_t`: whole seconds. -/
def seconds (ns : Nat) : Nat := ns / 1000000000

/-- Lines 113-124: is this entry older than two seconds, compared in whole seconds? -/
def aged (now : Nat) (e : (Nat × Bytes) × Nat) : Bool := e.2 + 2 < now

/-- Lines 120-123: the names that are left to ask for. -/
def unasked (outstanding : List ((Nat × Bytes) × Nat)) (now qtype : Nat) (addrs : List Bytes) : List Bytes :=
  addrs.filter (fun a => !outstanding.any (fun e => !aged now e && e.1 == (qtype, a)))

/-- Line 143, `insert`: leaves an entry that is there. -/
def remember (qtype now : Nat) (o : List ((Nat × Bytes) × Nat)) (a : Bytes) : List ((Nat × Bytes) × Nat) :=
  if o.any (fun e => e.1 == (qtype, a)) then o else o ++ [((qtype, a), now)]

/-- `sendQuery`, lines 107-175, with lines 113-124 as they are meant: the old entries are erased while the others are visited. -/
def sendQueryMeant (clock : Nat → Nat) (qtype : Nat) (addrs : List Bytes) (s : St) : St :=
  let now := seconds (clock s.calls)
  let o := s.outstanding.filter (fun e => !aged now e)
  let asked := unasked s.outstanding now qtype addrs
  if asked = [] then { s with outstanding := o, calls := s.calls + 1 }
  else
    { s with outstanding := asked.foldl (remember qtype now) o, calls := s.calls + 1, transactionId := (s.transactionId + 1) % 65536,
             sent := s.sent ++ [{ time := clock s.calls, qtype := qtype, names := asked, datagram := makeQuery s.transactionId qtype asked }] }

/-- `sendQuery`, lines 107-175. When an entry is erased (line 118) the loop goes on from an iterator to the erased entry, which is undefined behaviour. -/
def sendQuery (clock : Nat → Nat) (qtype : Nat) (addrs : List Bytes) (s : St) : Outcome St :=
  if s.outstanding.any (aged (seconds (clock s.calls))) then .ub else .ok (sendQueryMeant clock qtype addrs s)

/-! ## Reporting, lines 177-232 -/

/-- Lines 184-205, 210-230: the port, the addresses and the path of a pointer, when all is known. -/
def resolve (s : St) (it : Bytes) : Option (Nat × List Bytes × Bytes) :=
  match s.targets.get? it, s.ports.get? it, s.txts.get? it with
  | some target, some port, some txt =>
    match txt.get? (ascii "rp"), s.as.get? target with
    | some rp, some ips => some (port, ips, rp)
    | _, _ => none
  | _, _, _ => none

/-- `_found.push_back(addr); _callback(addr)` -/
def report (addr : Bytes) (s : St) : St := { s with found := s.found ++ [addr], reported := s.reported ++ [addr] }

/-- Lines 195-204: the addresses of one pointer, with `ippsIpRps`. -/
def reportIpps (port : Nat) (rp : Bytes) : List Bytes → St × List (Bytes × Bytes) → St × List (Bytes × Bytes)
  | [], p => p
  | ip :: ips, p =>
    if makeIppsAddr port ip rp ∈ p.1.found then reportIpps port rp ips p
    else reportIpps port rp ips (report (makeIppsAddr port ip rp) p.1, p.2 ++ [(ip, rp)])

/-- Lines 221-229 -/
def reportIpp (port : Nat) (rp : Bytes) (secure : List (Bytes × Bytes)) : List Bytes → St → St
  | [], s => s
  | ip :: ips, s =>
    if makeIppAddr port ip rp ∈ s.found ∨ (ip, rp) ∈ secure then reportIpp port rp secure ips s
    else reportIpp port rp secure ips (report (makeIppAddr port ip rp) s)

/-- Lines 182-206 -/
def updateIpps : List Bytes → St × List (Bytes × Bytes) → St × List (Bytes × Bytes)
  | [], p => p
  | it :: its, p =>
    match resolve p.1 it with
    | some (port, ips, rp) => updateIpps its (reportIpps port rp ips p)
    | none => updateIpps its p

/-- Lines 208-231 -/
def updateIpp (secure : List (Bytes × Bytes)) : List Bytes → St → St
  | [], s => s
  | it :: its, s =>
    match resolve s it with
    | some (port, ips, rp) => updateIpp secure its (reportIpp port rp secure ips s)
    | none => updateIpp secure its s

/-- `update`, lines 177-232 -/
def update (s : St) : St :=
  let p := updateIpps s.ippsPtrs (s, [])
  updateIpp p.2 s.ippPtrs p.1

/-! ## Receiving, lines 259-395 -/

/-- What lines 267-271 declare, the state, and the read position. -/
structure Reading where
  st : St
  newIppPtrs : List Bytes
  newIppsPtrs : List Bytes
  newTargets : List Bytes
  pos : Nat

/-- Lines 313-320: the strings of a TXT record that ends at `stop`; `fuel` bytes are left. When a string is short, what came before it stays. -/
def readTxts (msg : Bytes) (aaddr : Bytes) (stop : Nat) : Nat → Reading → Bool × Reading
  | 0, r => (r.pos ≥ stop, r)
  | fuel + 1, r =>
    if r.pos < stop then
      match getLabel msg r.pos with
      | .ok (txt, p) =>
        let key := txt.takeWhile (· ≠ 61)
        let value := if 61 ∈ txt then (txt.dropWhile (· ≠ 61)).drop 1 else txt
        let old := (r.st.txts.get? aaddr).getD []
        readTxts msg aaddr stop fuel { r with st := { r.st with txts := r.st.txts.assign aaddr (old.assign key value) }, pos := p }
      | _ => (false, r)
    else (true, r)

/-- Lines 292-352: one record; false when an exception ends the reading. The check in lines 348-351 can not be reached. -/
def readRecord (msg : Bytes) (r : Reading) : Bool × Reading :=
  let head : Outcome (Bytes × Nat × Nat × Nat) := do
    let a ← getAddrStr msg r.pos
    let t ← get16 msg a.2
    let f ← get16 msg t.2
    let l ← get32 msg f.2
    let n ← get16 msg l.2
    pure (a.1, t.1, n.1, n.2)
  match head with
  | .ok (aaddr, atype, len, pos) =>
    if atype = 12 then
      match getAddrStr msg pos with
      | .ok (name, p) =>
        if endsWith aaddr (ascii "_ipp._tcp.local") then (true, { r with newIppPtrs := r.newIppPtrs ++ [name], pos := p })
        else if endsWith aaddr (ascii "_ipps._tcp.local") then (true, { r with newIppsPtrs := r.newIppsPtrs ++ [name], pos := p })
        else (true, { r with pos := p })
      | _ => (false, r)
    else if atype = 16 then readTxts msg aaddr (pos + len) msg.length { r with pos := pos }
    else if atype = 33 then
      let body : Outcome (Nat × Bytes × Nat) := do
        let p ← get16 msg pos
        let w ← get16 msg p.2
        let port ← get16 msg w.2
        let t ← getAddrStr msg port.2
        pure (port.1, t.1, t.2)
      match body with
      | .ok (port, target, p) =>
        let s := { r.st with ports := r.st.ports.assign aaddr port, targets := r.st.targets.assign aaddr target }
        let ts := if target ∈ r.newTargets then r.newTargets else r.newTargets ++ [target]
        (true, { r with st := s, newTargets := ts, pos := p })
      | _ => (false, r)
    else if atype = 1 then
      match get32 msg pos with
      | .ok (ip, p) =>
        let ips := (r.st.as.get? aaddr).getD []
        (true, { r with st := { r.st with as := r.st.as.assign aaddr (ips ++ [ip4str ip]) }, pos := p })
      | _ => (false, r)
    else (true, { r with pos := pos + len })
  | _ => (false, r)

/-- Lines 287-353 -/
def readRecords (msg : Bytes) : Nat → Reading → Reading
  | 0, r => r
  | n + 1, r =>
    match readRecord msg r with
    | (true, r') => readRecords msg n r'
    | (false, r') => r'

/-- Lines 280-285: the position behind the questions. -/
def skipQuestions (msg : Bytes) : Nat → Nat → Outcome Nat
  | 0, pos => .ok pos
  | n + 1, pos => do
    let a ← getAddrStr msg pos
    let t ← get16 msg a.2
    let f ← get16 msg t.2
    skipQuestions msg n f.2

/-- Lines 267-358: reading a datagram. -/
def readResponse (msg : Bytes) (s : St) : Reading :=
  let r : Reading := { st := s, newIppPtrs := [], newIppsPtrs := [], newTargets := [], pos := 12 }
  let head : Outcome (Nat × Nat) := do
    let q ← get16 msg 4
    let an ← get16 msg 6
    let au ← get16 msg 8
    let ad ← get16 msg 10
    let p ← skipQuestions msg q.1 12
    pure (an.1 + au.1 + ad.1, p)
  match head with
  | .ok (total, p) => readRecords msg total { r with pos := p }
  | _ => r

/-- `updateAndQueryPtrs`, lines 234-257, for one of the two lists (`get`, `put`); `ask` is `sendQuery`. -/
def updateAndQueryPtrs (ask : Nat → List Bytes → St → Outcome St) (get : St → List Bytes) (put : List Bytes → St → St) :
    List Bytes → St → Outcome St
  | [], s => .ok s
  | ptr :: ptrs, s =>
    if ptr ∈ get s then updateAndQueryPtrs ask get put ptrs s
    else do
      let s1 := put (get s ++ [ptr]) s
      let s2 ← if s1.txts.has ptr then .ok s1 else ask 16 [ptr] s1
      let s3 ← if s2.targets.has ptr ∧ s2.ports.has ptr then .ok s2 else ask 33 [ptr] s2
      updateAndQueryPtrs ask get put ptrs s3

/-- Lines 371-392: what is done with the contents of a datagram. -/
def afterReading (ask : Nat → List Bytes → St → Outcome St) (r : Reading) : Outcome St := do
  let s1 ← updateAndQueryPtrs ask (·.ippsPtrs) (fun l s => { s with ippsPtrs := l }) r.newIppsPtrs r.st
  let s2 ← updateAndQueryPtrs ask (·.ippPtrs) (fun l s => { s with ippPtrs := l }) r.newIppPtrs s1
  let unresolved := r.newTargets.filter (fun t => !s2.as.has t)
  let s3 ← if unresolved = [] then .ok s2 else ask 1 unresolved s2
  pure (update s3)

/-- Lines 265-394: the loop over the datagrams. -/
def receive (ask : Nat → List Bytes → St → Outcome St) : List Bytes → St → Outcome St
  | [], s => .ok s
  | msg :: msgs, s => do
    let s' ← afterReading ask (readResponse msg s)
    receive ask msgs s'

/-- `discover`, lines 259-395, on the datagrams that arrive before two seconds pass without one. An empty datagram would end the loop too, so none of these is empty. -/
def discover (ask : Nat → List Bytes → St → Outcome St) (msgs : List Bytes) : Outcome St := do
  let s ← ask 12 [ascii "_ipp._tcp.local", ascii "_ipps._tcp.local"] start
  receive ask msgs s

end Verif.Discovery
