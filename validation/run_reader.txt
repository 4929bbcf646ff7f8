import Verif.Model.OSEGY
import Verif.Spec.Platform
open Sedaman
deriving instance Inhabited for Sedaman.Trace

def lst (b : ByteArray) : Bytes := b.toList.map fun x => BitVec.ofNat 8 x.toNat
-- floor(log16 x) + 1 + 64, from the exact value
def estLog : Dbl → Int := fun a => match a.val with
  | .fin _ m e => let l : Int := (Nat.log2 m : Int) + e; l / 4 + 65
  | _ => 0
def est : LogEst := ⟨estLog, Spec.x86Conv⟩
partial def readAllT (r : Reader) (acc : Array Trace) : Out (Array Trace) :=
  if hasTrace r then do
    let (t, r) ← readTrace r
    readAllT r (acc.push t)
  else .ok acc
def dval (d : Dbl) : Float := Float.ofBits d.toNat.toUInt64
def main (args : List String) : IO Unit := do
  for a in args do
    let b ← IO.FS.readBinFile a
    let data := lst b
    match openReader data none defaultMap with
    | .error e => IO.println s!"{a}: open error {repr e}"
    | .ok r =>
      IO.println s!"{a}: {repr r.bh}"
      match readAllT r #[] with
      | .error e => IO.println s!"read error {repr e}"
      | .ok ts =>
        IO.println s!"{ts.size} traces, spt {ts[0]!.samples.length}"
        let sum := ts[0]!.samples.foldl (fun s x => s + dval x) 0.0
        IO.println s!"sum of first: {sum} bits {sum.toBits}"
        let mut ref := ts[0]!.samples.toArray.map dval
        let mut bad := 0
        for t in ts.toList.drop 1 do
          ref := (ref.extract 1 ref.size).push 0.0
          let s1 := ref.foldl (· + ·) 0.0
          let s2 := t.samples.foldl (fun s x => s + dval x) 0.0
          if s1 != s2 then bad := bad + 1
        IO.println s!"traces whose sum differs from the shifted first one: {bad}"
        IO.println s!"header of trace 7: {repr (ts[7]!.header.take 200)}"
        match openRev0 r.texts[0]! r.bh defaultMap with
        | .error e => IO.println s!"open writer error {repr e}"
        | .ok w =>
          let mut w := w
          let mut n := 0
          let mut stop := false
          for t in ts.toList.take 200 do
            if !stop then
              match writeTraceRev0 est w t with
              | .error e => IO.println s!"write error at {n}: {repr e}"; stop := true
              | .ok w' => w := w'; n := n + 1
          let out := w.file.data
          IO.println s!"wrote {n}: {out.length} bytes, equal to the start of the file: {decide (out = data.take out.length)}"
