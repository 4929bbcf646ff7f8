import Verif.Model.ISEGYFail
import Verif.Model.Sorted1DFail
import Verif.Model.OSEGYFail
import Verif.Model.SegdFail
import Verif.Model.SegdWriter

/-!
# A process with several objects of the library

The only data outside of the objects that a call changes is the static array of the sample writer of
format 8015 (OSEGD.cpp:1093-1094). The static array of the sample reader of this format
(ISEGD.cpp:923-924) is not used with defined behaviour, see `readPacked`; all other static data are
constants. Calls are made one after the other, by one thread or by several that take turns. Constructors
do not use the array, so the model starts with the objects that the process ever has. Every object has a
file of its own that nobody else writes to.
-/

namespace Sedaman

/-- An object of one of the classes `ISEGY`, `ISEGYSorted1D`, `OSEGYRev0`, `OSEGYRev1`, `OSEGYRev2`, `ISEGD`
and `OSEGDRev2_1`. What the static array holds is not part of the last one. ISEGY.hpp:30,
ISEGYSorted1D.hpp:28, OSEGYRev0.hpp:28, OSEGYRev1.hpp:29, OSEGYRev2.hpp:27, ISEGD.hpp:28,
OSEGDRev2_1.hpp:27 -/
inductive Obj where
  | segy (s : RS)
  | sorted (d : SD)
  | rev0 (w : Writer)
  | rev1 (w : Writer)
  | rev2 (w : Writer)
  | segd (d : DS)
  | segdOut (s : OSegd)

/-- The calls: `has_trace`, `read_header`, `read_trace`, `get_headers`, `get_traces`, `write_trace`.
ISEGY.hpp:99-111, ISEGYSorted1D.hpp:76-111, OSEGY.hpp:51, ISEGD.hpp:253-259, OSEGD.hpp:61 -/
inductive Req where
  | hasTrace
  | readHeader
  | readTrace
  | getHeaders (v : Value) (max : Nat)
  | getTraces (v : Value) (max : Nat)
  | writeTrace (t : Trace)

/-- What they return. -/
inductive Reply where
  | done
  | yes (b : Bool)
  | header (h : Header)
  | trace (t : Trace)
  | headers (hs : List Header)
  | traces (ts : List Trace)
  deriving DecidableEq, Repr

/-- A call of an object while the static array holds `p`: what it returns, the object and the array
afterwards. A call that the class does not have does not compile; the model does nothing.
OSEGD.cpp:1092-1113 and the functions named -/
def Obj.call (H : Host) (p : List Dbl) : Obj → Req → Out Reply × Obj × List Dbl
  | .segy s, .hasTrace => (.ok (.yes (Sedaman.hasTrace s.r)), .segy s, p)
  | .segy s, .readHeader => let (x, s) := rmReadHeader s; (x.map .header, .segy s, p)
  | .segy s, .readTrace => let (x, s) := rmReadTrace s; (x.map .trace, .segy s, p)
  | .sorted d, .hasTrace => (.ok (.yes d.s.hasTrace), .sorted d, p)
  | .sorted d, .readHeader => let (x, d) := d.readHeader; (x.map .header, .sorted d, p)
  | .sorted d, .readTrace => let (x, d) := d.readTrace; (x.map .trace, .sorted d, p)
  | .sorted d, .getHeaders v max => let (x, d) := d.getHeaders v max; (x.map .headers, .sorted d, p)
  | .sorted d, .getTraces v max => let (x, d) := d.getTraces v max; (x.map .traces, .sorted d, p)
  | .rev0 w, .writeTrace t => let (x, w) := writeTraceRev0IO H.est w t; (x.map fun _ => .done, .rev0 w, p)
  | .rev1 w, .writeTrace t => let (x, w) := writeTraceRev1IO H.est w t; (x.map fun _ => .done, .rev1 w, p)
  | .rev2 w, .writeTrace t => let (x, w) := writeTraceRev2IO H.est w t; (x.map fun _ => .done, .rev2 w, p)
  | .segd d, .hasTrace => (.ok (.yes d.s.hasTrace), .segd d, p)
  | .segd d, .readTrace => let (x, d) := smReadTrace H.pw d; (x.map .trace, .segd d, p)
  | .segdOut s, .writeTrace t =>
    let (x, s) := writeTraceD H t { s with mem := ⟨p, s.mem.buf⟩ }
    (x.map fun _ => .done, .segdOut { s with mem := ⟨[], s.mem.buf⟩ }, s.mem.pending)
  | o, _ => (.ok .done, o, p)

/-- The objects, and what the static array holds. OSEGD.cpp:1093-1094 -/
structure Proc where
  objs : List Obj
  pending : List Dbl

/-- Object `i` is called; there is no call of an object that does not exist. -/
def Proc.step (H : Host) (s : Proc) (i : Nat) (r : Req) : Out Reply × Proc :=
  match s.objs[i]? with
  | none => (.ok .done, s)
  | some o =>
    let (x, o, p) := o.call H s.pending r
    (x, ⟨s.objs.set i o, p⟩)

end Sedaman
