import Verif.Core.Bytes

/-!
# Model of the streaming upload (lib/curlrequester.cpp, lib/lthread.h)

A transition system of two threads: the writer (which calls `write`, `setCompression` and `await`) and the network thread (inside
`curl_easy_perform`, which calls `requestWrite` with buffers of any size greater than 0 and returns at any time between such calls). Each step
makes one access to what the threads share; every interleaving of the steps is an execution.

The two `std::mutex`es are used as binary semaphores: one thread locks, the other unlocks (which the C++ standard leaves undefined for
mutexes), and `await` may unlock a mutex that nobody holds. They are modelled as booleans, "free"; `unlock` sets free whatever it was before. The flags that the threads read without
a lock (`_complete`) are modelled as sequentially consistent. What `curl` does with the bytes is not modelled.
-/

namespace Verif.Transport

/-- `enum class Compression`, curlrequester.h 16-21 -/
inductive Comp where
  | none | deflate | gzip
  deriving DecidableEq, Repr

/-- What the code uses of zlib: `deflateInit2` for a kind of compression (curlrequester.cpp 156), and `deflate` (99): given the state, the input,
the size of the output buffer and whether to finish, it gives the new state, the number of input bytes it used, and the output. -/
structure Codec (Z : Type) where
  init : Comp → Z
  deflate : Z → Bytes → Nat → Bool → Z × Nat × Bytes

/-- Where the writer is. -/
inductive WPos where
  /-- not in a call -/
  | idle
  /-- `write`: at `_canWrite.try_lock()`, curlrequester.cpp 71 -/
  | tryW (d : Bytes)
  /-- `write`: at `_worker.isRunning()`, 73 -/
  | chk (d : Bytes)
  /-- `write`: at `_data = std::move(data)`, 80 -/
  | setData (d : Bytes)
  /-- `write`: at `_compression = _nextCompression`, 81 -/
  | setComp (d : Bytes)
  /-- `write`: at `_canRead.unlock()`, 82 -/
  | post (d : Bytes)
  /-- `await`: at the first `_worker.isRunning()`, 177 -/
  | aRun
  /-- `await`: at `_canWrite.try_lock()`, 177 -/
  | aTry
  /-- `await`: at a later `_worker.isRunning()`, 177 -/
  | aChk
  /-- `await`: at `_done = true`, 182 -/
  | aDone
  /-- `await`: at `_data = Bytestream()`, 183 -/
  | aData
  /-- `await`: at `_canRead.unlock()`, 184 -/
  | aPost
  /-- `await`: at `_thread.join()`, lthread.h 38 -/
  | aJoin
  deriving DecidableEq, Repr

/-- Where the network thread is; `n` is the size of the buffer, `out` what was put into it. -/
inductive RPos where
  /-- in curl, between calls of `requestWrite` (or not yet started) -/
  | outside
  /-- at the start of `requestWrite`, curlrequester.cpp 88-90 -/
  | enter (n : Nat)
  /-- at `_reading = true`, 91 -/
  | mark (n : Nat)
  /-- at the copying or compressing, 94-115 -/
  | produce (n : Nat)
  /-- at the checks of `_done` and `_data.atEnd()`, 117-120 -/
  | check (n : Nat) (out : Bytes)
  /-- at `_canWrite.unlock()`, 122 -/
  | unlock (n : Nat) (out : Bytes)
  /-- at `if(bytesWritten == 0)`, 124 -/
  | again (n : Nat) (out : Bytes)
  /-- at `return bytesWritten`, 131 -/
  | ret (out : Bytes)
  /-- `curl_easy_perform` has returned, lthread.h 26 -/
  | exiting
  /-- `_complete` has been set -/
  | ended
  deriving DecidableEq, Repr

/-- The state of a `CurlIppPosterBase` and of the two threads. -/
structure St (Z : Type) where
  canWrite : Bool
  canRead : Bool
  reading : Bool
  done : Bool
  complete : Bool
  /-- the part of `_data` that has not been read -/
  data : Bytes
  comp : Comp
  next : Comp
  z : Z
  w : WPos
  r : RPos

/-- After the constructor, curlrequester.cpp 159-163 and the initialisers in curlrequester.h. -/
def start {Z : Type} (z : Z) : St Z :=
  { canWrite := true, canRead := false, reading := false, done := false, complete := false, data := [], comp := .none, next := .none,
    z := z, w := .idle, r := .outside }

/-- What can be seen from outside. -/
inductive Ev where
  /-- nothing -/
  | tau
  /-- the writer calls `write(d)` -/
  | callWrite (d : Bytes)
  /-- `write(d)` returns true -/
  | wrote (d : Bytes)
  /-- `write(d)` returns false -/
  | refused (d : Bytes)
  /-- `setCompression(k)` returns -/
  | setComp (k : Comp)
  /-- the writer calls `await` -/
  | callAwait
  /-- `await` returns -/
  | awaited
  /-- curl asks for `n` bytes -/
  | request (n : Nat)
  /-- `requestWrite` gives these bytes to curl; none at all means the end of the data -/
  | gave (out : Bytes)
  /-- `curl_easy_perform` returns -/
  | exit
  /-- from now on `isRunning` returns false -/
  | ended
  deriving DecidableEq, Repr

/-- Lines 94-115: the output, and what changes in the state. The compressor is given all that is left; that the code hands zlib the lower 32 bits of its length only is in
`narrow` (Narrow.lean), which makes of a compressor the one that the code with it amounts to. -/
def produceOut {Z : Type} (c : Codec Z) (s : St Z) (n : Nat) : Bytes :=
  if s.comp ≠ .none then (c.deflate s.z s.data n s.done).2.2 else s.data.take n

/-- The compressor's state after lines 94-115. -/
def produceZ {Z : Type} (c : Codec Z) (s : St Z) (n : Nat) : Z :=
  if s.comp ≠ .none then (c.deflate s.z s.data n s.done).1 else s.z

/-- What is left of `_data` after lines 94-115. -/
def produceData {Z : Type} (c : Codec Z) (s : St Z) (n : Nat) : Bytes :=
  if s.comp ≠ .none then s.data.drop (c.deflate s.z s.data n s.done).2.1 else s.data.drop n

/-- The steps of both threads. -/
inductive Step {Z : Type} (c : Codec Z) : Ev → St Z → St Z → Prop
  -- the caller of the writer's functions
  | callWrite (s : St Z) (d : Bytes) : s.w = .idle → Step c (.callWrite d) s { s with w := .tryW d }
  /-- curlrequester.cpp 134-157; it throws and changes nothing if a compression has been set. -/
  | setCompression (s : St Z) (k : Comp) : s.w = .idle → s.next = .none →
      Step c (.setComp k) s { s with next := k, z := c.init k }
  | callAwait (s : St Z) : s.w = .idle → Step c .callAwait s { s with w := .aRun }
  -- write
  | lockOk (s : St Z) (d : Bytes) : s.w = .tryW d → s.canWrite = true →
      Step c .tau s { s with canWrite := false, w := .setData d }
  | lockFail (s : St Z) (d : Bytes) : s.w = .tryW d → s.canWrite = false → Step c .tau s { s with w := .chk d }
  | chkDead (s : St Z) (d : Bytes) : s.w = .chk d → s.complete = true → Step c (.refused d) s { s with w := .idle }
  | chkAlive (s : St Z) (d : Bytes) : s.w = .chk d → s.complete = false → Step c .tau s { s with w := .tryW d }
  | setData (s : St Z) (d : Bytes) : s.w = .setData d → Step c .tau s { s with data := d, w := .setComp d }
  | setComp (s : St Z) (d : Bytes) : s.w = .setComp d → Step c .tau s { s with comp := s.next, w := .post d }
  | post (s : St Z) (d : Bytes) : s.w = .post d → Step c (.wrote d) s { s with canRead := true, w := .idle }
  -- await
  | runDead (s : St Z) : s.w = .aRun → s.complete = true → Step c .tau s { s with w := .aDone }
  | runAlive (s : St Z) : s.w = .aRun → s.complete = false → Step c .tau s { s with w := .aTry }
  | tryOk (s : St Z) : s.w = .aTry → s.canWrite = true → Step c .tau s { s with canWrite := false, w := .aDone }
  | tryFail (s : St Z) : s.w = .aTry → s.canWrite = false → Step c .tau s { s with w := .aChk }
  | againDead (s : St Z) : s.w = .aChk → s.complete = true → Step c .tau s { s with w := .aDone }
  | againAlive (s : St Z) : s.w = .aChk → s.complete = false → Step c .tau s { s with w := .aTry }
  | aDone (s : St Z) : s.w = .aDone → Step c .tau s { s with done := true, w := .aData }
  | aData (s : St Z) : s.w = .aData → Step c .tau s { s with data := [], w := .aPost }
  | aPost (s : St Z) : s.w = .aPost → Step c .tau s { s with canRead := true, w := .aJoin }
  | aJoin (s : St Z) : s.w = .aJoin → s.r = .ended → Step c .awaited s { s with w := .idle }
  -- the network thread
  | request (s : St Z) (n : Nat) : s.r = .outside → 0 < n → Step c (.request n) s { s with r := .enter n }
  | lockRead (s : St Z) (n : Nat) : s.r = .enter n → s.reading = false → s.canRead = true →
      Step c .tau s { s with canRead := false, r := .mark n }
  | noLock (s : St Z) (n : Nat) : s.r = .enter n → s.reading = true → Step c .tau s { s with r := .produce n }
  | mark (s : St Z) (n : Nat) : s.r = .mark n → Step c .tau s { s with reading := true, r := .produce n }
  | produce (s : St Z) (n : Nat) : s.r = .produce n →
      Step c .tau s { s with z := produceZ c s n, data := produceData c s n, r := .check n (produceOut c s n) }
  | checkDone (s : St Z) (n : Nat) (out : Bytes) : s.r = .check n out → s.done = true → Step c .tau s { s with r := .ret out }
  | checkEnd (s : St Z) (n : Nat) (out : Bytes) : s.r = .check n out → s.done = false → s.data = [] →
      Step c .tau s { s with reading := false, r := .unlock n out }
  | checkMore (s : St Z) (n : Nat) (out : Bytes) : s.r = .check n out → s.done = false → s.data ≠ [] →
      Step c .tau s { s with r := .again n out }
  | unlock (s : St Z) (n : Nat) (out : Bytes) : s.r = .unlock n out →
      Step c .tau s { s with canWrite := true, r := .again n out }
  | again (s : St Z) (n : Nat) : s.r = .again n [] → Step c .tau s { s with r := .enter n }
  | enough (s : St Z) (n : Nat) (out : Bytes) : s.r = .again n out → out ≠ [] → Step c .tau s { s with r := .ret out }
  | ret (s : St Z) (out : Bytes) : s.r = .ret out → Step c (.gave out) s { s with r := .outside }
  | exit (s : St Z) : s.r = .outside → Step c .exit s { s with r := .exiting }
  | complete (s : St Z) : s.r = .exiting → Step c .ended s { s with complete := true, r := .ended }

/-- The executions: what was seen, in order, and the state it led to. -/
inductive Exec {Z : Type} (c : Codec Z) : List Ev → St Z → Prop
  | start (z : Z) : Exec c [] (start z)
  | step {t : List Ev} {s s' : St Z} {e : Ev} : Exec c t s → Step c e s s' → Exec c (t ++ [e]) s'

end Verif.Transport
