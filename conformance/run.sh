#!/bin/bash
# Compiles the model in a scratch directory, runs it on the sample logs of the project and compares what it
# prints with the expected outputs that the tests of the project use (test/*_info.txt, test/*_messages.txt).
# Also does what test_write_ulog does: load, write, load again, compare.
# This is a test of the model, not a proof of anything.
#   usage: conformance/run.sh [directory with the samples, default /repo/test]
T=${1:-/repo/test}
W=$(mktemp -d)
cd "$(dirname "$0")/../lean" || exit 1
mkdir -p $W/Verif && cp -r Verif/Model $W/Verif/ && cp lean-toolchain $W/ 2>/dev/null
cd $W || exit 1
cat > lakefile.toml <<'END'
name = "conf"
defaultTargets = ["conf"]

[[lean_lib]]
name = "Verif"

[[lean_exe]]
name = "conf"
root = "Main"
END
cat > Main.lean <<'END'
import Verif.Model.Info
import Verif.Model.ReprText
import Verif.Model.Events
import Verif.Model.Write
import Verif.Model.Api
open PyULog
def show' (s : Str) : String := String.ofList s
def loadFile (cfg : Cfg) (b : ByteArray) : IO LoadRes := do
  let l := b.toList
  return load 1000000 cfg l
/-- the messages of the events in the samples, as in the expected output; other events belong to other groups -/
def stub (opened : String) (id : Int) : Event :=
  let d (s : String) : Event := ⟨py! "default", s.toList⟩
  match id with
  | 17980399 => d ("logging: opening log file " ++ opened)
  | 26266355 => d "Armed by internal command"
  | 20656071 => d "Using default takeoff altitude: 2.50 m"
  | 21054825 => d "Takeoff detected"
  | 22161044 => d "RTL: start return at 491 m (3 m above destination)"
  | 16962474 => d "RTL: land at destination"
  | 26622124 => d "Landing detected"
  | 32794487 => d "Disarmed by landing"
  | _ => ⟨py! "health", []⟩
def main (args : List String) : IO UInt32 := do
  let b ← IO.FS.readBinFile args[1]!
  match args[0]! with
  | "info" =>
    match ← loadFile { ign := false } b with
    | .ok u =>
      match showInfoText (fun c => c.toNat ≠ 127 && !(128 ≤ c.toNat && c.toNat < 161)) true u with
      | .ok ls => for l in ls do IO.println (show' l)
      | .error e => IO.println s!"error {repr e}"
    | .raised e => IO.println s!"raised {repr e}"
    | .outOfFuel => IO.println "fuel"
  | "messages" =>
    match ← loadFile { ign := false, filter := .names [py! "event"] } b with
    | .ok u =>
      let ev := (getLoggedEvents (.ok (some fun id _ => .ok (some (stub args[2]! id)))) u).map fun l => l.map fun (t, x) => ((match t with | .int n => n.toNat | _ => 0), x)
      match messageLines u ev with
      | .ok ls => for l in ls do IO.println (show' l)
      | .error e => IO.println s!"error {repr e}"
    | .raised e => IO.println s!"raised {repr e}"
    | .outOfFuel => IO.println "fuel"
  | "write" =>
    match ← loadFile {} b with
    | .ok u =>
      match writeUlog u with
      | .ok out => 
        let o := ByteArray.mk out.toArray
        IO.FS.writeBinFile args[2]! o
        match ← loadFile {} o with
        | .ok v =>
          let u' := { u with syncCnt := 0, appendedOffsets := [], incompat := match u.incompat with | x :: xs => (x &&& 0xFE) :: xs | [] => [] }
          IO.println s!"equal {decide (u' = v)} eq {decide (u'.dataList = v.dataList)} {u'.fileCorrupt} {v.fileCorrupt} missing {u'.missingIds} {v.missingIds}"
        | _ => IO.println "not loaded"
      | .error e => IO.println s!"error {repr e}"
    | .raised e => IO.println s!"raised {repr e}"
    | .outOfFuel => IO.println "fuel"
  | "events" =>
    match ← loadFile { ign := false, filter := .names [py! "event"] } b with
    | .ok u =>
      match getLoggedEvents (.ok none) u with
      | .ok ls => for (t, l, m) in ls do IO.println s!"{repr t} {show' l}: {show' m}"
      | .error e => IO.println s!"error {repr e}"
    | .raised e => IO.println s!"raised {repr e}"
    | .outOfFuel => IO.println "fuel"
  | "params" =>
    match ← loadFile { ign := false, filter := .names [] } b with
    | .ok u =>
      match paramsText pyText {} u with
      | .ok t => IO.print (show' t)
      | .error e => IO.println s!"error {repr e}"
    | .raised e => IO.println s!"raised {repr e}"
    | .outOfFuel => IO.println "fuel"
  | _ => IO.println "?"
  return 0
END
lake build || exit 1
ulimit -s unlimited
B=.lake/build/bin/conf
same() { if cmp -s out "$2"; then echo "same: $1"; else echo "DIFFERENT: $1"; fi; }
for f in sample_appended_multiple sample; do
  $B info $T/$f.ulg > out; same "ulog_info -v $f" $T/${f}_info.txt
done
for f in sample sample_appended_multiple sample_log_small; do
  $B messages $T/$f.ulg x > out; same "ulog_messages $f" $T/${f}_messages.txt
done
$B messages $T/sample_px4_events.ulg 2024-3-18/14_49_10.ulg > out
same "ulog_messages sample_px4_events" $T/sample_px4_events_messages.txt
$B messages $T/sample_logging_tagged_and_default_params.ulg 2022-4-29/8_45_27.ulg > out
same "ulog_messages sample_logging_tagged_and_default_params" $T/sample_logging_tagged_and_default_params_messages.txt
for f in sample_appended_multiple sample_log_small sample_px4_events sample_logging_tagged_and_default_params sample; do
  echo "write_ulog $f: $($B write $T/$f.ulg written)"
done
rm -rf $W
