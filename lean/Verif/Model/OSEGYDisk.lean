import Verif.Model.OSEGYFail

/-!
# What SEG-Y writers hand over to the file, write by write

`Verif.Model.OSEGY` says what the file is after each call. Here are the calls of `file.write` that lead there,
in the order in which the code makes them, for the question what is on disk when the program is stopped
somewhere in between. A stream keeps bytes back for some time, but hands them over in this order; before
`seekg` moves the position all bytes kept back are handed over.

Simplification: the list ends where a call throws. (The destructor would still write the stanzas.)
-/

namespace Sedaman

/-- One call of `file.write`: the position in the file and the bytes. -/
structure Put where
  pos : Nat
  bytes : Bytes
  deriving DecidableEq, Repr

/-- The loops that write the first 3200 bytes of each string. OSEGY.cpp:424-440 -/
def textPuts : Nat → List Bytes → List Put
  | _, [] => []
  | p, t :: ts => ⟨p, t.take textHeaderSize⟩ :: textPuts (p + textHeaderSize) ts

/-- The constructors: the first text, the binary header, the extended texts.
OSEGYRev0.cpp:47-52, OSEGYRev1.cpp:48-58, OSEGYRev2.cpp:55-65 -/
def openPuts (rev0 : Bool) (texts : List Bytes) (bh : BinHeader) : List Put :=
  textPuts 0 (texts.take 1) ++
  let dflt : Int := if rev0 then 1 else 5
  let bh := if bh.formatCode = 0 then { bh with formatCode := dflt } else bh
  match byteOrderOf bh.endianness with
  | .error _ => []
  | .ok bo => ⟨textHeaderSize, binHeaderBytes bo bh⟩ ::
    if rev0 then [] else textPuts (textHeaderSize + 400) (texts.drop 1)

/-- A step of `write_trace` that puts something into the file, and what follows unless it throws. -/
def putStep (x : Out Writer) (own : Writer → List Put) (next : Writer → List Put) : List Put :=
  match x with
  | .error _ => []
  | .ok w => own w ++ next w

/-- The binary header that an automatic writer stores again at the first trace.
OSEGYRev0.cpp:69-94, OSEGYRev1.cpp:80-107, OSEGYRev2.cpp:130-152 -/
def autoPuts (w w' : Writer) : List Put :=
  if w.auto ∧ w.file.pos = w.firstPos then [⟨textHeaderSize, binHeaderBytes w'.bo w'.bh⟩] else []

/-- The additional header blocks. OSEGY.cpp:352-421 -/
def addPuts (est : LogEst) (hdr : Header) : (n i : Nat) → Writer → List Put
  | 0, _, _ => []
  | n + 1, i, w =>
    match addBlock est w hdr i with
    | .error _ => []
    | .ok buf => ⟨w.file.pos, buf⟩ :: addPuts est hdr n (i + 1) { w with hdrBuf := buf, file := w.file.write buf }

/-- `OSEGYRev0::write_trace`. OSEGYRev0.cpp:63-66, 68-97 -/
def putsRev0 (est : LogEst) (w : Writer) (t : Trace) : List Put :=
  putStep (autoHdrs false w t.header) (autoPuts w) fun w =>
  putStep (putTraceHeader est w t.header) (fun w' => [⟨w.file.pos, w'.hdrBuf⟩]) fun w =>
  putStep (writeSamplesFix est w t.samples) (fun w' => [⟨w.file.pos, w'.samp⟩]) fun _ => []

/-- `OSEGYRev1::write_trace`. OSEGYRev1.cpp:62-75, 79-110 -/
def putsRev1 (est : LogEst) (w : Writer) (t : Trace) : List Put :=
  putStep (autoHdrs false w t.header) (autoPuts w) fun w =>
  putStep (putTraceHeader est w t.header) (fun w' => [⟨w.file.pos, w'.hdrBuf⟩]) fun w =>
  putStep (if !w.auto ∧ w.bh.fixedTrLength ≠ 0 then writeSamplesFix est w t.samples else writeSamplesVar est w t)
    (fun w' => [⟨w.file.pos, w'.samp⟩]) fun _ => []

/-- `OSEGYRev2::write_trace`. OSEGYRev2.cpp:67-127 -/
def putsRev2 (est : LogEst) (w : Writer) (t : Trace) : List Put :=
  putStep (autoHdrs true w t.header) (autoPuts w) fun w =>
  putStep (putTraceHeader est w t.header) (fun w' => [⟨w.file.pos, w'.hdrBuf⟩]) fun w =>
  let add := if w.bh.maxNumAddTrHeaders ≠ 0 then
    addPuts est t.header (w.bh.maxNumAddTrHeaders - 1).toNat 1 w else []
  add ++ putStep (addHdrs est w t.header) (fun _ => []) fun w =>
  putStep (if w.bh.fixedTrLength ≠ 0 then writeSamplesFix est w t.samples else writeSamplesVar est w t)
    (fun w' => [⟨w.file.pos, w'.samp⟩]) fun _ => []

/-- `OSEGYRev2::~OSEGYRev2`. OSEGYRev2.cpp:169-174, OSEGY.cpp:433-440 -/
def closePuts (w : Writer) : List Put :=
  if w.bh.numOfTrailerStanza ≠ 0 then textPuts w.file.data.length w.trailers else []

/-- One `write_trace` after the other. -/
def callPuts (step : Writer → Trace → Out Writer) (puts : Writer → Trace → List Put) :
    Writer → List Trace → List Put
  | _, [] => []
  | w, t :: ts => puts w t ++
    match step w t with
    | .error _ => []
    | .ok w' => callPuts step puts w' ts

/-- A program that opens an `OSEGYRev0` and writes traces. OSEGYRev0.cpp:31-112 -/
def programRev0 (est : LogEst) (text : Bytes) (bh : BinHeader) (m : HdrMap) (ts : List Trace) : List Put :=
  match openRev0 text bh m with
  | .error _ => []
  | .ok w => openPuts true w.texts bh ++ callPuts (writeTraceRev0 est) (putsRev0 est) w ts

/-- A program that opens an `OSEGYRev1` and writes traces. OSEGYRev1.cpp:31-126 -/
def programRev1 (est : LogEst) (texts : List Bytes) (bh : BinHeader) (m : HdrMap) (ts : List Trace) : List Put :=
  match openRev1 texts bh m with
  | .error _ => []
  | .ok w => openPuts false w.texts bh ++ callPuts (writeTraceRev1 est) (putsRev1 est) w ts

/-- A program that opens an `OSEGYRev2`, writes traces and closes it. OSEGYRev2.cpp:33-174 -/
def programRev2 (est : LogEst) (texts : List Bytes) (bh : BinHeader) (trailers : List Bytes) (m : HdrMap)
    (ts : List Trace) : List Put :=
  match openRev2 texts bh trailers m with
  | .error _ => []
  | .ok w => openPuts false w.texts bh ++ callPuts (writeTraceRev2 est) (putsRev2 est) w ts ++
    match writeAll (writeTraceRev2 est) w ts with
    | .error _ => []
    | .ok w => closePuts w

end Sedaman
