import Verif.Model.Reader
/-! Run the model's reader on a log file and print one line per item (model validation only;
not part of the proofs): `lake env lean --run ../tools/run_model.lean file mode validate nmeaonly q`. -/
open Py Nmea
def main (args : List String) : IO Unit := do
  let f := args[0]!
  let n (i : Nat) : Nat := (args[i]!).toNat!
  let data := (← IO.FS.readBinFile f).toList
  let cfg : RCfg := { mode := n 1, validate := n 2, nmeaonly := n 3 != 0, quitonerror := n 4, udefs := [] }
  let now : Nat → DateTime := fun _ => ⟨⟨2026,1,2⟩,⟨1,2,3,4⟩⟩
  let (items, log, fin) := readAll now fileStream cfg data
  for (_, m) in items do
    match m with
    | none => IO.println "None"
    | some m => match m.str with
      | .ok s => IO.println s.show
      | .error e => IO.println s!"ERR {repr e}"
  IO.println s!"LOG {repr log}"
  IO.println s!"END {repr fin}"
