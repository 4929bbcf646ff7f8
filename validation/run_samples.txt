import Verif.Model.OSEGY
import Verif.Spec.Platform
open Sedaman
deriving instance Inhabited for Sedaman.Trace
def lst (b : ByteArray) : Bytes := b.toList.map fun x => BitVec.ofNat 8 x.toNat
def estLog : Dbl → Int := fun a => match a.val with
  | .fin _ m e => let l : Int := (Nat.log2 m : Int) + e; l / 4 + 65
  | _ => 0
def est : LogEst := .strict estLog
def estX : LogEst := ⟨estLog, Spec.x86Conv⟩
def estA : LogEst := ⟨estLog, Spec.armConv⟩
-- what the C library does
def estC : LogEst := .strict fun a => (Float.floor (Float.log (Float.ofBits a.toNat.toUInt64) / Float.log 2 / 4 + 1 + 64)).toInt64.toInt
def go (fmt : Int) (name : String) (e : LogEst) : IO Unit := do
  let data := lst (← IO.FS.readBinFile ("/repo/samples/" ++ name))
  match openReader data none defaultMap with
  | .error e => IO.println s!"open error {repr e}"
  | .ok r =>
    let mut r := r
    let mut same := 0; let mut diff := 0; let mut ub := 0; let mut exn := 0
    let mut k := 0
    while hasTrace r && k < 400 do
      k := k + 1
      let pos := r.file.pos
      match readTrace r with
      | .error e => IO.println s!"{repr e}"; k := 1000
      | .ok (t, r') =>
        r := r'
        let raw := (data.drop (pos + 240)).take (t.samples.length * r.bps)
        match sampleWriter e fmt with
        | .error _ => pure ()
        | .ok w =>
          let mut raw := raw
          for x in t.samples do
            match w .be x with
            | .ok b => if b = raw.take r.bps then same := same + 1 else diff := diff + 1
            | .error (.ub _) => ub := ub + 1
            | .error _ => exn := exn + 1
            raw := raw.drop r.bps
    IO.println s!"{name}: same bytes {same}, other bytes {diff}, undefined {ub}, exceptions {exn}"
def main : IO Unit := do
  IO.println "C++ only, exact logarithm:"
  for (n, f) in [(1, "ibm.sgy"), (2, "4I.sgy"), (3, "2I.sgy"), (8, "1I.sgy"), (5, "ieee_single.sgy")] do
    go n f est
  IO.println "C++ only, logarithm of the C library:"
  go 1 "ibm.sgy" estC
  IO.println "x86-64:"
  for (n, f) in [(1, "ibm.sgy"), (2, "4I.sgy"), (3, "2I.sgy"), (8, "1I.sgy")] do
    go n f estX
  IO.println "ARM64:"
  for (n, f) in [(1, "ibm.sgy"), (2, "4I.sgy"), (3, "2I.sgy"), (8, "1I.sgy")] do
    go n f estA
