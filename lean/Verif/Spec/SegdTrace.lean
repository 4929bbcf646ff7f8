import Verif.Model.SegdTrace
import Verif.Spec.SegdGen
import Verif.Spec.TraceHdr

/-!
# Vocabulary for the SEG-D trace header properties
-/

namespace Sedaman.Spec

/-- The fixed point number `k / 2^8` a trace header carries under a name; zero when not set. -/
def headerFix8 (hdr : Header) (n : String) (k : Nat) : Prop :=
  hdr.get n = some (.dbl (dyadic k 8)) ∨ (hdr.get n = none ∧ k = 0)

/-- The trace header of a written trace: the numbers it carries. Values not set count as zero;
the channel set number has to be set. -/
structure Carries (hdr : Header) (ffid scan chSet chan timing ext skew edit brk : Nat) : Prop where
  ffid : headerInt hdr "FFID" ffid
  scan : headerInt hdr "SCAN_TYPE_NUM" scan
  chSet : hdr.get "CH_SET_NUM" = some (.int chSet)
  chan : headerInt hdr "CHAN" chan
  timing : headerFix8 hdr "FIRST_TIMING_WORD" timing
  ext : headerInt hdr "TR_HDR_EXT" ext
  skew : headerFix8 hdr "SAMPLE_SKEW" skew
  edit : headerInt hdr "TRACE_EDIT" edit
  brk : headerFix8 hdr "TIME_BREAK_WIN" brk

/-- The header the reader returns for a trace header that carries these numbers. -/
structure Returned (hdr : Header) (ffid scan chSet chan timing ext skew edit brk : Nat) : Prop where
  ffid : hdr.get "FFID" = some (.int ffid)
  scan : hdr.get "SCAN_TYPE_NUM" = some (.int scan)
  chSet : hdr.get "CH_SET_NUM" = some (.int chSet)
  chan : hdr.get "CHAN" = some (.int chan)
  timing : hdr.get "FIRST_TIMING_WORD" = some (.dbl (dyadic timing 8))
  ext : hdr.get "TR_HDR_EXT" = some (.int ext)
  skew : hdr.get "SAMPLE_SKEW" = some (.dbl (dyadic skew 8))
  edit : hdr.get "TRACE_EDIT" = some (.int edit)
  brk : hdr.get "TIME_BREAK_WIN" = some (.dbl (dyadic brk 8))
  others : ∀ n, n ∉ ["FFID", "SCAN_TYPE_NUM", "CH_SET_NUM", "CHAN", "FIRST_TIMING_WORD",
    "TR_HDR_EXT", "SAMPLE_SKEW", "TRACE_EDIT", "TIME_BREAK_WIN"] → hdr.get n = none

end Sedaman.Spec
