import Verif.Model.OSEGYDisk
import Verif.Model.SegdWriter

/-!
# Writing to a device that stops accepting bytes

`CommonSEGY` and `CommonSEGD` write through a `std::fstream` with exceptions for `failbit` and `badbit`. The
stream keeps bytes back and hands them over to the operating system later. Which ones, and when, depends
on the implementation; here a schedule says it, within a limit on how many bytes are kept back. The device
accepts some number of bytes and then none any more (a full disk, a quota, a broken connection).

Assumptions on `std::fstream`: bytes are handed over in the order they were written. When the device refuses
a byte while `write` or `seekg` hand over bytes, `badbit` or `failbit` is set, so the call throws. On a
stream that is not good, `seekg` throws. The destructor of the stream hands over all bytes it still keeps and
reports no errors.

Simplification: bytes that replace earlier ones (the binary header of an automatic writer) count like bytes
that make the file longer. The `seekg` of an automatic writer (OSEGY.cpp:285) is not a step of its own: a schedule
that hands over everything older at the `write` after it has the same effect.
-/

namespace Sedaman

/-- A `std::fstream` that is written to: what is on disk, how many bytes the device still accepts, the
bytes kept back, each with its position in the file, and whether the stream has an error. CommonSEGY.cpp:26-29,
CommonSEGD.cpp:40-43 -/
structure Stream where
  disk : Bytes
  free : Nat
  kept : List (Byte × Nat)
  bad : Bool
  deriving DecidableEq

/-- A new file on a device that accepts `free` bytes. -/
def Stream.fresh (free : Nat) : Stream := ⟨[], free, [], false⟩

/-- The first `n` bytes kept back are handed over. -/
def Stream.hand (n : Nat) (s : Stream) : Stream :=
  { disk := ((s.kept.take n).take s.free).foldl (fun d x => (File.write ⟨d, x.2⟩ [x.1]).data) s.disk
    free := s.free - (s.kept.take n).length
    kept := s.kept.drop n
    bad := s.bad || decide (s.free < (s.kept.take n).length) }

/-- All bytes kept back are handed over: what `seekg` does before it moves the position, and the destructor of
the stream. -/
def Stream.flush (s : Stream) : Stream := s.hand s.kept.length

/-- One `file.write`. At least so many bytes are handed over that at most `cap` are kept back. It throws if the
stream is bad afterwards. -/
def Stream.write (cap n : Nat) (p : Put) (s : Stream) : Stream :=
  let kept := s.kept ++ p.bytes.zipIdx p.pos
  Stream.hand (max n (kept.length - cap)) { s with kept }

/-- A call of the library: its `file.write`s, up to the first that throws. `i` numbers them for the schedule. -/
def Stream.call (cap : Nat) (sched : Nat → Nat) : Nat → List Put → Stream → Stream
  | _, [], s => s
  | i, p :: ps, s =>
    let s' := s.write cap (sched i) p
    if s'.bad then s' else Stream.call cap sched (i + 1) ps s'

/-- A program: calls of the library up to the first that throws. The number of calls that returned, and the
stream. -/
def Stream.run (cap : Nat) (sched : Nat → Nat) : Nat → List (List Put) → Stream → Nat × Stream
  | _, [], s => (0, s)
  | i, c :: cs, s =>
    let s' := s.call cap sched i c
    if s'.bad then (0, s')
    else
      let r := Stream.run cap sched (i + c.length) cs s'
      (r.1 + 1, r.2)

/-- How a program ends whose calls throw for no other reason than the stream: normally, with an exception it can
catch, or terminated by `std::terminate`. -/
inductive Ending where
  | normal
  | threw
  | terminated
  deriving DecidableEq, Repr

/-- The rest of a program that uses a class without a destructor of its own: nothing but the destructor of the
stream. The ending and what is on disk. OSEGYRev0.cpp:114, OSEGYRev1.cpp:128, OSEGY.cpp:493, OSEGDRev2_1.cpp:95,
OSEGD.cpp:1298 -/
def Stream.finish (cap : Nat) (sched : Nat → Nat) (calls : List (List Put)) (free : Nat) : Ending × Bytes :=
  let r := Stream.run cap sched 0 calls (.fresh free)
  (if r.1 = calls.length then .normal else .threw, r.2.flush.disk)

/-- The rest of a program that uses `OSEGYRev2`, whose destructor calls `seekg` and writes the trailer stanzas.
An exception in a destructor terminates the program; what the stream keeps back then is lost. There is no
destructor call when the constructor (the first call) threw. OSEGYRev2.cpp:169-174 -/
def Stream.finishRev2 (cap : Nat) (sched : Nat → Nat) (calls : List (List Put)) (close : List Put) (free : Nat) :
    Ending × Bytes :=
  let r := Stream.run cap sched 0 calls (.fresh free)
  if r.1 = 0 then (.threw, r.2.flush.disk)
  else if r.2.bad then (.terminated, r.2.disk)
  else
    let s := r.2.flush
    if s.bad then (.terminated, s.disk)
    else
      let s := s.call cap sched calls.flatten.length close
      if s.bad then (.terminated, s.disk) else (.normal, s.flush.disk)

/-- The `file.write`s of each `write_trace`. -/
def traceCalls (step : Writer → Trace → Out Writer) (puts : Writer → Trace → List Put) :
    Writer → List Trace → List (List Put)
  | _, [] => []
  | w, t :: ts => puts w t ::
    match step w t with
    | .error _ => []
    | .ok w' => traceCalls step puts w' ts

/-- The calls of a program that opens an `OSEGYRev0` and writes traces. OSEGYRev0.cpp:31-112 -/
def callsRev0 (est : LogEst) (text : Bytes) (bh : BinHeader) (m : HdrMap) (ts : List Trace) : List (List Put) :=
  match openRev0 text bh m with
  | .error _ => []
  | .ok w => openPuts true w.texts bh :: traceCalls (writeTraceRev0 est) (putsRev0 est) w ts

/-- The same for `OSEGYRev1`. OSEGYRev1.cpp:31-126 -/
def callsRev1 (est : LogEst) (texts : List Bytes) (bh : BinHeader) (m : HdrMap) (ts : List Trace) : List (List Put) :=
  match openRev1 texts bh m with
  | .error _ => []
  | .ok w => openPuts false w.texts bh :: traceCalls (writeTraceRev1 est) (putsRev1 est) w ts

/-- The same for `OSEGYRev2`, without its destructor. OSEGYRev2.cpp:33-167 -/
def callsRev2 (est : LogEst) (texts : List Bytes) (bh : BinHeader) (trailers : List Bytes) (m : HdrMap)
    (ts : List Trace) : List (List Put) :=
  match openRev2 texts bh trailers m with
  | .error _ => []
  | .ok w => openPuts false w.texts bh :: traceCalls (writeTraceRev2 est) (putsRev2 est) w ts

/-- What the destructor of `OSEGYRev2` writes after these traces. OSEGYRev2.cpp:169-174 -/
def destroyRev2 (est : LogEst) (texts : List Bytes) (bh : BinHeader) (trailers : List Bytes) (m : HdrMap)
    (ts : List Trace) : List Put :=
  match openRev2 texts bh trailers m with
  | .error _ => []
  | .ok w =>
    match writeAll (writeTraceRev2 est) w ts with
    | .error _ => []
    | .ok w => closePuts w

/-- The bytes each `write_trace` of `OSEGDRev2_1` adds to the file; the `file.write`s of a call are taken
together. OSEGDRev2_1.cpp:71-81 -/
def traceCallsD (H : Host) : OSegd → List Trace → List (List Put)
  | _, [] => []
  | s, t :: ts =>
    let r := writeTraceD H t s
    [⟨s.out.length, r.2.out.drop s.out.length⟩] ::
      match r.1 with
      | .error _ => []
      | .ok _ => traceCallsD H r.2 ts

/-- The calls of a program that opens an `OSEGDRev2_1` and writes traces. OSEGDRev2_1.cpp:17-81 -/
def callsSegd (H : Host) (heap : Nat) (a : OSegdArgs) (ts : List Trace) : List (List Put) :=
  match openSegdWriter H heap a with
  | .error _ => []
  | .ok w => [⟨0, w.out⟩] :: traceCallsD H w ts

end Sedaman
