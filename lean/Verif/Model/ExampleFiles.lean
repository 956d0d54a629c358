import Verif.Model.TemplateFiles
import Verif.Model.Json

/-
The example in /repo and the files that its tests read, character by character.  Written by tools/examples.py, which also checks that they are
the same.  They are not part of the model: they are what it is compared with (Props/Conformance.lean).
-/

namespace Rtcg

namespace ExampleFiles

/-- examples/bmon/traces:1-64 -/
def tracesLines0 : List Str :=
  [ c!"#",
    c!"# Tests for the battery monitor",
    c!"#",
    c!"# Last updated 2023-02-13",
    c!"#",
    c!"",
    c!"# The monitor can’t report that the battery is OK before receiving a battery reading.",
    c!"b1a: batteryStatus.out.Ok",
    c!"",
    c!"# The monitor can’t report that the battery is mission-critical before receiving a battery reading.",
    c!"b1b: batteryStatus.out.MissionCritical",
    c!"",
    c!"# The monitor can’t report that the battery is safety-critical before receiving a battery reading.",
    c!"b1c: batteryStatus.out.SafetyCritical",
    c!"",
    c!"# The monitor can’t receive a battery information report before handling the preceding one.",
    c!"b2a: batteryInfo.in.100, batteryInfo.in.100",
    c!"b2b: batteryInfo.in.30 , batteryInfo.in.30",
    c!"b2c: batteryInfo.in.20 , batteryInfo.in.20",
    c!"",
    c!"# The monitor can’t declare an OK battery reading as mission-critical.",
    c!"b3a: batteryInfo.in.100, batteryStatus.out.MissionCritical",
    c!"",
    c!"# The monitor can’t declare an OK battery reading as safety-critical.",
    c!"b3b: batteryInfo.in.100, batteryStatus.out.SafetyCritical",
    c!"",
    c!"# The monitor can’t declare a mission-critical battery reading as OK.",
    c!"b3c: batteryInfo.in.30, batteryStatus.out.Ok",
    c!"",
    c!"# The monitor can’t declare a mission-critical battery reading as safety-critical.",
    c!"b3d: batteryInfo.in.30, batteryStatus.out.SafetyCritical",
    c!"",
    c!"# The monitor can’t declare a safety-critical battery reading as OK.",
    c!"b3e: batteryInfo.in.20, batteryStatus.out.Ok",
    c!"",
    c!"# The monitor can’t declare a safety-critical battery reading as mission-critical.",
    c!"b3f: batteryInfo.in.20, batteryStatus.out.MissionCritical",
    c!"",
    c!"# The monitor can’t emit Ok then Ok without taking another battery reading in between. (This may be an overspecification)",
    c!"b4a: batteryInfo.in.100, batteryStatus.out.Ok, batteryStatus.out.Ok",
    c!"",
    c!"# The monitor can’t emit Ok then MissionCritical without taking another battery reading in between.",
    c!"b4b: batteryInfo.in.100, batteryStatus.out.Ok, batteryStatus.out.MissionCritical",
    c!"",
    c!"# The monitor can’t emit Ok then SafetyCritical without taking another battery reading in between.",
    c!"b4c: batteryInfo.in.100, batteryStatus.out.Ok, batteryStatus.out.SafetyCritical",
    c!"",
    c!"# The monitor can’t emit MissionCritical then Ok without taking another battery reading in between.",
    c!"b4d: batteryInfo.in.30, batteryStatus.out.MissionCritical, batteryStatus.out.Ok",
    c!"",
    c!"# The monitor can’t emit MissionCritical then MissionCritical without taking another battery reading in between. (This may be an overspecification)",
    c!"b4e: batteryInfo.in.30, batteryStatus.out.MissionCritical, batteryStatus.out.MissionCritical",
    c!"",
    c!"# The monitor can’t emit MissionCritical then SafetyCritical without taking another battery reading in between.",
    c!"b4f: batteryInfo.in.30, batteryStatus.out.MissionCritical, batteryStatus.out.SafetyCritical",
    c!"",
    c!"# The monitor can’t emit SafetyCritical then Ok without taking another battery reading in between.",
    c!"b4g: batteryInfo.in.20, batteryStatus.out.SafetyCritical, batteryStatus.out.Ok",
    c!"",
    c!"# The monitor can’t emit SafetyCritical then MissionCritical without taking another battery reading in between.",
    c!"b4h: batteryInfo.in.20, batteryStatus.out.SafetyCritical, batteryStatus.out.MissionCritical",
    c!"",
    c!"# The monitor can’t emit SafetyCritical then SafetyCritical without taking another battery reading in between. (This may be an overspecification)",
    c!"b4i: batteryInfo.in.20, batteryStatus.out.SafetyCritical, batteryStatus.out.SafetyCritical",
    c!"" ]

/-- examples/bmon/traces, the whole file -/
def traces : Str := TemplateFiles.unlines (tracesLines0)

/-- examples/bmon/tests.json:1-150 -/
def testsJsonLines0 : List Str :=
  [ c!"{",
    c!"\t\"b1a\": {",
    c!"\t\t\"tests\": [",
    c!"\t\t\t\"b1a\"",
    c!"\t\t],",
    c!"\t\t\"next\": [",
    c!"\t\t\t{",
    c!"\t\t\t\t\"tests\": [",
    c!"\t\t\t\t\t\"b1a\"",
    c!"\t\t\t\t],",
    c!"\t\t\t\t\"outcome\": \"pass\",",
    c!"\t\t\t\t\"event\": \"batteryStatus.out.Ok\",",
    c!"\t\t\t\t\"next\": [",
    c!"\t\t\t\t\t{",
    c!"\t\t\t\t\t\t\"tests\": [",
    c!"\t\t\t\t\t\t\t\"b1a\"",
    c!"\t\t\t\t\t\t],",
    c!"\t\t\t\t\t\t\"outcome\": \"fail\"",
    c!"\t\t\t\t\t}",
    c!"\t\t\t\t]",
    c!"\t\t\t}",
    c!"\t\t]",
    c!"\t},",
    c!"\t\"b1b\": {",
    c!"\t\t\"tests\": [",
    c!"\t\t\t\"b1b\"",
    c!"\t\t],",
    c!"\t\t\"next\": [",
    c!"\t\t\t{",
    c!"\t\t\t\t\"tests\": [",
    c!"\t\t\t\t\t\"b1b\"",
    c!"\t\t\t\t],",
    c!"\t\t\t\t\"outcome\": \"pass\",",
    c!"\t\t\t\t\"event\": \"batteryStatus.out.MissionCritical\",",
    c!"\t\t\t\t\"next\": [",
    c!"\t\t\t\t\t{",
    c!"\t\t\t\t\t\t\"tests\": [",
    c!"\t\t\t\t\t\t\t\"b1b\"",
    c!"\t\t\t\t\t\t],",
    c!"\t\t\t\t\t\t\"outcome\": \"fail\"",
    c!"\t\t\t\t\t}",
    c!"\t\t\t\t]",
    c!"\t\t\t}",
    c!"\t\t]",
    c!"\t},",
    c!"\t\"b1c\": {",
    c!"\t\t\"tests\": [",
    c!"\t\t\t\"b1c\"",
    c!"\t\t],",
    c!"\t\t\"next\": [",
    c!"\t\t\t{",
    c!"\t\t\t\t\"tests\": [",
    c!"\t\t\t\t\t\"b1c\"",
    c!"\t\t\t\t],",
    c!"\t\t\t\t\"outcome\": \"pass\",",
    c!"\t\t\t\t\"event\": \"batteryStatus.out.SafetyCritical\",",
    c!"\t\t\t\t\"next\": [",
    c!"\t\t\t\t\t{",
    c!"\t\t\t\t\t\t\"tests\": [",
    c!"\t\t\t\t\t\t\t\"b1c\"",
    c!"\t\t\t\t\t\t],",
    c!"\t\t\t\t\t\t\"outcome\": \"fail\"",
    c!"\t\t\t\t\t}",
    c!"\t\t\t\t]",
    c!"\t\t\t}",
    c!"\t\t]",
    c!"\t},",
    c!"\t\"b2a\": {",
    c!"\t\t\"tests\": [",
    c!"\t\t\t\"b2a\"",
    c!"\t\t],",
    c!"\t\t\"next\": [",
    c!"\t\t\t{",
    c!"\t\t\t\t\"tests\": [",
    c!"\t\t\t\t\t\"b2a\"",
    c!"\t\t\t\t],",
    c!"\t\t\t\t\"outcome\": \"inc\",",
    c!"\t\t\t\t\"event\": \"batteryInfo.in.100\",",
    c!"\t\t\t\t\"next\": [",
    c!"\t\t\t\t\t{",
    c!"\t\t\t\t\t\t\"tests\": [",
    c!"\t\t\t\t\t\t\t\"b2a\"",
    c!"\t\t\t\t\t\t],",
    c!"\t\t\t\t\t\t\"outcome\": \"pass\",",
    c!"\t\t\t\t\t\t\"event\": \"batteryInfo.in.100\",",
    c!"\t\t\t\t\t\t\"next\": [",
    c!"\t\t\t\t\t\t\t{",
    c!"\t\t\t\t\t\t\t\t\"tests\": [",
    c!"\t\t\t\t\t\t\t\t\t\"b2a\"",
    c!"\t\t\t\t\t\t\t\t],",
    c!"\t\t\t\t\t\t\t\t\"outcome\": \"fail\"",
    c!"\t\t\t\t\t\t\t}",
    c!"\t\t\t\t\t\t]",
    c!"\t\t\t\t\t}",
    c!"\t\t\t\t]",
    c!"\t\t\t}",
    c!"\t\t]",
    c!"\t},",
    c!"\t\"b2b\": {",
    c!"\t\t\"tests\": [",
    c!"\t\t\t\"b2b\"",
    c!"\t\t],",
    c!"\t\t\"next\": [",
    c!"\t\t\t{",
    c!"\t\t\t\t\"tests\": [",
    c!"\t\t\t\t\t\"b2b\"",
    c!"\t\t\t\t],",
    c!"\t\t\t\t\"outcome\": \"inc\",",
    c!"\t\t\t\t\"event\": \"batteryInfo.in.30\",",
    c!"\t\t\t\t\"next\": [",
    c!"\t\t\t\t\t{",
    c!"\t\t\t\t\t\t\"tests\": [",
    c!"\t\t\t\t\t\t\t\"b2b\"",
    c!"\t\t\t\t\t\t],",
    c!"\t\t\t\t\t\t\"outcome\": \"pass\",",
    c!"\t\t\t\t\t\t\"event\": \"batteryInfo.in.30\",",
    c!"\t\t\t\t\t\t\"next\": [",
    c!"\t\t\t\t\t\t\t{",
    c!"\t\t\t\t\t\t\t\t\"tests\": [",
    c!"\t\t\t\t\t\t\t\t\t\"b2b\"",
    c!"\t\t\t\t\t\t\t\t],",
    c!"\t\t\t\t\t\t\t\t\"outcome\": \"fail\"",
    c!"\t\t\t\t\t\t\t}",
    c!"\t\t\t\t\t\t]",
    c!"\t\t\t\t\t}",
    c!"\t\t\t\t]",
    c!"\t\t\t}",
    c!"\t\t]",
    c!"\t},",
    c!"\t\"b2c\": {",
    c!"\t\t\"tests\": [",
    c!"\t\t\t\"b2c\"",
    c!"\t\t],",
    c!"\t\t\"next\": [",
    c!"\t\t\t{",
    c!"\t\t\t\t\"tests\": [",
    c!"\t\t\t\t\t\"b2c\"",
    c!"\t\t\t\t],",
    c!"\t\t\t\t\"outcome\": \"inc\",",
    c!"\t\t\t\t\"event\": \"batteryInfo.in.20\",",
    c!"\t\t\t\t\"next\": [",
    c!"\t\t\t\t\t{",
    c!"\t\t\t\t\t\t\"tests\": [",
    c!"\t\t\t\t\t\t\t\"b2c\"",
    c!"\t\t\t\t\t\t],",
    c!"\t\t\t\t\t\t\"outcome\": \"pass\",",
    c!"\t\t\t\t\t\t\"event\": \"batteryInfo.in.20\",",
    c!"\t\t\t\t\t\t\"next\": [",
    c!"\t\t\t\t\t\t\t{",
    c!"\t\t\t\t\t\t\t\t\"tests\": [" ]

/-- examples/bmon/tests.json:151-300 -/
def testsJsonLines1 : List Str :=
  [ c!"\t\t\t\t\t\t\t\t\t\"b2c\"",
    c!"\t\t\t\t\t\t\t\t],",
    c!"\t\t\t\t\t\t\t\t\"outcome\": \"fail\"",
    c!"\t\t\t\t\t\t\t}",
    c!"\t\t\t\t\t\t]",
    c!"\t\t\t\t\t}",
    c!"\t\t\t\t]",
    c!"\t\t\t}",
    c!"\t\t]",
    c!"\t},",
    c!"\t\"b3a\": {",
    c!"\t\t\"tests\": [",
    c!"\t\t\t\"b3a\"",
    c!"\t\t],",
    c!"\t\t\"next\": [",
    c!"\t\t\t{",
    c!"\t\t\t\t\"tests\": [",
    c!"\t\t\t\t\t\"b3a\"",
    c!"\t\t\t\t],",
    c!"\t\t\t\t\"outcome\": \"inc\",",
    c!"\t\t\t\t\"event\": \"batteryInfo.in.100\",",
    c!"\t\t\t\t\"next\": [",
    c!"\t\t\t\t\t{",
    c!"\t\t\t\t\t\t\"tests\": [",
    c!"\t\t\t\t\t\t\t\"b3a\"",
    c!"\t\t\t\t\t\t],",
    c!"\t\t\t\t\t\t\"outcome\": \"pass\",",
    c!"\t\t\t\t\t\t\"event\": \"batteryStatus.out.MissionCritical\",",
    c!"\t\t\t\t\t\t\"next\": [",
    c!"\t\t\t\t\t\t\t{",
    c!"\t\t\t\t\t\t\t\t\"tests\": [",
    c!"\t\t\t\t\t\t\t\t\t\"b3a\"",
    c!"\t\t\t\t\t\t\t\t],",
    c!"\t\t\t\t\t\t\t\t\"outcome\": \"fail\"",
    c!"\t\t\t\t\t\t\t}",
    c!"\t\t\t\t\t\t]",
    c!"\t\t\t\t\t}",
    c!"\t\t\t\t]",
    c!"\t\t\t}",
    c!"\t\t]",
    c!"\t},",
    c!"\t\"b3b\": {",
    c!"\t\t\"tests\": [",
    c!"\t\t\t\"b3b\"",
    c!"\t\t],",
    c!"\t\t\"next\": [",
    c!"\t\t\t{",
    c!"\t\t\t\t\"tests\": [",
    c!"\t\t\t\t\t\"b3b\"",
    c!"\t\t\t\t],",
    c!"\t\t\t\t\"outcome\": \"inc\",",
    c!"\t\t\t\t\"event\": \"batteryInfo.in.100\",",
    c!"\t\t\t\t\"next\": [",
    c!"\t\t\t\t\t{",
    c!"\t\t\t\t\t\t\"tests\": [",
    c!"\t\t\t\t\t\t\t\"b3b\"",
    c!"\t\t\t\t\t\t],",
    c!"\t\t\t\t\t\t\"outcome\": \"pass\",",
    c!"\t\t\t\t\t\t\"event\": \"batteryStatus.out.SafetyCritical\",",
    c!"\t\t\t\t\t\t\"next\": [",
    c!"\t\t\t\t\t\t\t{",
    c!"\t\t\t\t\t\t\t\t\"tests\": [",
    c!"\t\t\t\t\t\t\t\t\t\"b3b\"",
    c!"\t\t\t\t\t\t\t\t],",
    c!"\t\t\t\t\t\t\t\t\"outcome\": \"fail\"",
    c!"\t\t\t\t\t\t\t}",
    c!"\t\t\t\t\t\t]",
    c!"\t\t\t\t\t}",
    c!"\t\t\t\t]",
    c!"\t\t\t}",
    c!"\t\t]",
    c!"\t},",
    c!"\t\"b3c\": {",
    c!"\t\t\"tests\": [",
    c!"\t\t\t\"b3c\"",
    c!"\t\t],",
    c!"\t\t\"next\": [",
    c!"\t\t\t{",
    c!"\t\t\t\t\"tests\": [",
    c!"\t\t\t\t\t\"b3c\"",
    c!"\t\t\t\t],",
    c!"\t\t\t\t\"outcome\": \"inc\",",
    c!"\t\t\t\t\"event\": \"batteryInfo.in.30\",",
    c!"\t\t\t\t\"next\": [",
    c!"\t\t\t\t\t{",
    c!"\t\t\t\t\t\t\"tests\": [",
    c!"\t\t\t\t\t\t\t\"b3c\"",
    c!"\t\t\t\t\t\t],",
    c!"\t\t\t\t\t\t\"outcome\": \"pass\",",
    c!"\t\t\t\t\t\t\"event\": \"batteryStatus.out.Ok\",",
    c!"\t\t\t\t\t\t\"next\": [",
    c!"\t\t\t\t\t\t\t{",
    c!"\t\t\t\t\t\t\t\t\"tests\": [",
    c!"\t\t\t\t\t\t\t\t\t\"b3c\"",
    c!"\t\t\t\t\t\t\t\t],",
    c!"\t\t\t\t\t\t\t\t\"outcome\": \"fail\"",
    c!"\t\t\t\t\t\t\t}",
    c!"\t\t\t\t\t\t]",
    c!"\t\t\t\t\t}",
    c!"\t\t\t\t]",
    c!"\t\t\t}",
    c!"\t\t]",
    c!"\t},",
    c!"\t\"b3d\": {",
    c!"\t\t\"tests\": [",
    c!"\t\t\t\"b3d\"",
    c!"\t\t],",
    c!"\t\t\"next\": [",
    c!"\t\t\t{",
    c!"\t\t\t\t\"tests\": [",
    c!"\t\t\t\t\t\"b3d\"",
    c!"\t\t\t\t],",
    c!"\t\t\t\t\"outcome\": \"inc\",",
    c!"\t\t\t\t\"event\": \"batteryInfo.in.30\",",
    c!"\t\t\t\t\"next\": [",
    c!"\t\t\t\t\t{",
    c!"\t\t\t\t\t\t\"tests\": [",
    c!"\t\t\t\t\t\t\t\"b3d\"",
    c!"\t\t\t\t\t\t],",
    c!"\t\t\t\t\t\t\"outcome\": \"pass\",",
    c!"\t\t\t\t\t\t\"event\": \"batteryStatus.out.SafetyCritical\",",
    c!"\t\t\t\t\t\t\"next\": [",
    c!"\t\t\t\t\t\t\t{",
    c!"\t\t\t\t\t\t\t\t\"tests\": [",
    c!"\t\t\t\t\t\t\t\t\t\"b3d\"",
    c!"\t\t\t\t\t\t\t\t],",
    c!"\t\t\t\t\t\t\t\t\"outcome\": \"fail\"",
    c!"\t\t\t\t\t\t\t}",
    c!"\t\t\t\t\t\t]",
    c!"\t\t\t\t\t}",
    c!"\t\t\t\t]",
    c!"\t\t\t}",
    c!"\t\t]",
    c!"\t},",
    c!"\t\"b3e\": {",
    c!"\t\t\"tests\": [",
    c!"\t\t\t\"b3e\"",
    c!"\t\t],",
    c!"\t\t\"next\": [",
    c!"\t\t\t{",
    c!"\t\t\t\t\"tests\": [",
    c!"\t\t\t\t\t\"b3e\"",
    c!"\t\t\t\t],",
    c!"\t\t\t\t\"outcome\": \"inc\",",
    c!"\t\t\t\t\"event\": \"batteryInfo.in.20\",",
    c!"\t\t\t\t\"next\": [",
    c!"\t\t\t\t\t{",
    c!"\t\t\t\t\t\t\"tests\": [",
    c!"\t\t\t\t\t\t\t\"b3e\"",
    c!"\t\t\t\t\t\t]," ]

/-- examples/bmon/tests.json:301-450 -/
def testsJsonLines2 : List Str :=
  [ c!"\t\t\t\t\t\t\"outcome\": \"pass\",",
    c!"\t\t\t\t\t\t\"event\": \"batteryStatus.out.Ok\",",
    c!"\t\t\t\t\t\t\"next\": [",
    c!"\t\t\t\t\t\t\t{",
    c!"\t\t\t\t\t\t\t\t\"tests\": [",
    c!"\t\t\t\t\t\t\t\t\t\"b3e\"",
    c!"\t\t\t\t\t\t\t\t],",
    c!"\t\t\t\t\t\t\t\t\"outcome\": \"fail\"",
    c!"\t\t\t\t\t\t\t}",
    c!"\t\t\t\t\t\t]",
    c!"\t\t\t\t\t}",
    c!"\t\t\t\t]",
    c!"\t\t\t}",
    c!"\t\t]",
    c!"\t},",
    c!"\t\"b3f\": {",
    c!"\t\t\"tests\": [",
    c!"\t\t\t\"b3f\"",
    c!"\t\t],",
    c!"\t\t\"next\": [",
    c!"\t\t\t{",
    c!"\t\t\t\t\"tests\": [",
    c!"\t\t\t\t\t\"b3f\"",
    c!"\t\t\t\t],",
    c!"\t\t\t\t\"outcome\": \"inc\",",
    c!"\t\t\t\t\"event\": \"batteryInfo.in.20\",",
    c!"\t\t\t\t\"next\": [",
    c!"\t\t\t\t\t{",
    c!"\t\t\t\t\t\t\"tests\": [",
    c!"\t\t\t\t\t\t\t\"b3f\"",
    c!"\t\t\t\t\t\t],",
    c!"\t\t\t\t\t\t\"outcome\": \"pass\",",
    c!"\t\t\t\t\t\t\"event\": \"batteryStatus.out.MissionCritical\",",
    c!"\t\t\t\t\t\t\"next\": [",
    c!"\t\t\t\t\t\t\t{",
    c!"\t\t\t\t\t\t\t\t\"tests\": [",
    c!"\t\t\t\t\t\t\t\t\t\"b3f\"",
    c!"\t\t\t\t\t\t\t\t],",
    c!"\t\t\t\t\t\t\t\t\"outcome\": \"fail\"",
    c!"\t\t\t\t\t\t\t}",
    c!"\t\t\t\t\t\t]",
    c!"\t\t\t\t\t}",
    c!"\t\t\t\t]",
    c!"\t\t\t}",
    c!"\t\t]",
    c!"\t},",
    c!"\t\"b4a\": {",
    c!"\t\t\"tests\": [",
    c!"\t\t\t\"b4a\"",
    c!"\t\t],",
    c!"\t\t\"next\": [",
    c!"\t\t\t{",
    c!"\t\t\t\t\"tests\": [",
    c!"\t\t\t\t\t\"b4a\"",
    c!"\t\t\t\t],",
    c!"\t\t\t\t\"outcome\": \"inc\",",
    c!"\t\t\t\t\"event\": \"batteryInfo.in.100\",",
    c!"\t\t\t\t\"next\": [",
    c!"\t\t\t\t\t{",
    c!"\t\t\t\t\t\t\"tests\": [",
    c!"\t\t\t\t\t\t\t\"b4a\"",
    c!"\t\t\t\t\t\t],",
    c!"\t\t\t\t\t\t\"outcome\": \"inc\",",
    c!"\t\t\t\t\t\t\"event\": \"batteryStatus.out.Ok\",",
    c!"\t\t\t\t\t\t\"next\": [",
    c!"\t\t\t\t\t\t\t{",
    c!"\t\t\t\t\t\t\t\t\"tests\": [",
    c!"\t\t\t\t\t\t\t\t\t\"b4a\"",
    c!"\t\t\t\t\t\t\t\t],",
    c!"\t\t\t\t\t\t\t\t\"outcome\": \"pass\",",
    c!"\t\t\t\t\t\t\t\t\"event\": \"batteryStatus.out.Ok\",",
    c!"\t\t\t\t\t\t\t\t\"next\": [",
    c!"\t\t\t\t\t\t\t\t\t{",
    c!"\t\t\t\t\t\t\t\t\t\t\"tests\": [",
    c!"\t\t\t\t\t\t\t\t\t\t\t\"b4a\"",
    c!"\t\t\t\t\t\t\t\t\t\t],",
    c!"\t\t\t\t\t\t\t\t\t\t\"outcome\": \"fail\"",
    c!"\t\t\t\t\t\t\t\t\t}",
    c!"\t\t\t\t\t\t\t\t]",
    c!"\t\t\t\t\t\t\t}",
    c!"\t\t\t\t\t\t]",
    c!"\t\t\t\t\t}",
    c!"\t\t\t\t]",
    c!"\t\t\t}",
    c!"\t\t]",
    c!"\t},",
    c!"\t\"b4b\": {",
    c!"\t\t\"tests\": [",
    c!"\t\t\t\"b4b\"",
    c!"\t\t],",
    c!"\t\t\"next\": [",
    c!"\t\t\t{",
    c!"\t\t\t\t\"tests\": [",
    c!"\t\t\t\t\t\"b4b\"",
    c!"\t\t\t\t],",
    c!"\t\t\t\t\"outcome\": \"inc\",",
    c!"\t\t\t\t\"event\": \"batteryInfo.in.100\",",
    c!"\t\t\t\t\"next\": [",
    c!"\t\t\t\t\t{",
    c!"\t\t\t\t\t\t\"tests\": [",
    c!"\t\t\t\t\t\t\t\"b4b\"",
    c!"\t\t\t\t\t\t],",
    c!"\t\t\t\t\t\t\"outcome\": \"inc\",",
    c!"\t\t\t\t\t\t\"event\": \"batteryStatus.out.Ok\",",
    c!"\t\t\t\t\t\t\"next\": [",
    c!"\t\t\t\t\t\t\t{",
    c!"\t\t\t\t\t\t\t\t\"tests\": [",
    c!"\t\t\t\t\t\t\t\t\t\"b4b\"",
    c!"\t\t\t\t\t\t\t\t],",
    c!"\t\t\t\t\t\t\t\t\"outcome\": \"pass\",",
    c!"\t\t\t\t\t\t\t\t\"event\": \"batteryStatus.out.MissionCritical\",",
    c!"\t\t\t\t\t\t\t\t\"next\": [",
    c!"\t\t\t\t\t\t\t\t\t{",
    c!"\t\t\t\t\t\t\t\t\t\t\"tests\": [",
    c!"\t\t\t\t\t\t\t\t\t\t\t\"b4b\"",
    c!"\t\t\t\t\t\t\t\t\t\t],",
    c!"\t\t\t\t\t\t\t\t\t\t\"outcome\": \"fail\"",
    c!"\t\t\t\t\t\t\t\t\t}",
    c!"\t\t\t\t\t\t\t\t]",
    c!"\t\t\t\t\t\t\t}",
    c!"\t\t\t\t\t\t]",
    c!"\t\t\t\t\t}",
    c!"\t\t\t\t]",
    c!"\t\t\t}",
    c!"\t\t]",
    c!"\t},",
    c!"\t\"b4c\": {",
    c!"\t\t\"tests\": [",
    c!"\t\t\t\"b4c\"",
    c!"\t\t],",
    c!"\t\t\"next\": [",
    c!"\t\t\t{",
    c!"\t\t\t\t\"tests\": [",
    c!"\t\t\t\t\t\"b4c\"",
    c!"\t\t\t\t],",
    c!"\t\t\t\t\"outcome\": \"inc\",",
    c!"\t\t\t\t\"event\": \"batteryInfo.in.100\",",
    c!"\t\t\t\t\"next\": [",
    c!"\t\t\t\t\t{",
    c!"\t\t\t\t\t\t\"tests\": [",
    c!"\t\t\t\t\t\t\t\"b4c\"",
    c!"\t\t\t\t\t\t],",
    c!"\t\t\t\t\t\t\"outcome\": \"inc\",",
    c!"\t\t\t\t\t\t\"event\": \"batteryStatus.out.Ok\",",
    c!"\t\t\t\t\t\t\"next\": [",
    c!"\t\t\t\t\t\t\t{",
    c!"\t\t\t\t\t\t\t\t\"tests\": [",
    c!"\t\t\t\t\t\t\t\t\t\"b4c\"",
    c!"\t\t\t\t\t\t\t\t],",
    c!"\t\t\t\t\t\t\t\t\"outcome\": \"pass\"," ]

/-- examples/bmon/tests.json:451-600 -/
def testsJsonLines3 : List Str :=
  [ c!"\t\t\t\t\t\t\t\t\"event\": \"batteryStatus.out.SafetyCritical\",",
    c!"\t\t\t\t\t\t\t\t\"next\": [",
    c!"\t\t\t\t\t\t\t\t\t{",
    c!"\t\t\t\t\t\t\t\t\t\t\"tests\": [",
    c!"\t\t\t\t\t\t\t\t\t\t\t\"b4c\"",
    c!"\t\t\t\t\t\t\t\t\t\t],",
    c!"\t\t\t\t\t\t\t\t\t\t\"outcome\": \"fail\"",
    c!"\t\t\t\t\t\t\t\t\t}",
    c!"\t\t\t\t\t\t\t\t]",
    c!"\t\t\t\t\t\t\t}",
    c!"\t\t\t\t\t\t]",
    c!"\t\t\t\t\t}",
    c!"\t\t\t\t]",
    c!"\t\t\t}",
    c!"\t\t]",
    c!"\t},",
    c!"\t\"b4d\": {",
    c!"\t\t\"tests\": [",
    c!"\t\t\t\"b4d\"",
    c!"\t\t],",
    c!"\t\t\"next\": [",
    c!"\t\t\t{",
    c!"\t\t\t\t\"tests\": [",
    c!"\t\t\t\t\t\"b4d\"",
    c!"\t\t\t\t],",
    c!"\t\t\t\t\"outcome\": \"inc\",",
    c!"\t\t\t\t\"event\": \"batteryInfo.in.30\",",
    c!"\t\t\t\t\"next\": [",
    c!"\t\t\t\t\t{",
    c!"\t\t\t\t\t\t\"tests\": [",
    c!"\t\t\t\t\t\t\t\"b4d\"",
    c!"\t\t\t\t\t\t],",
    c!"\t\t\t\t\t\t\"outcome\": \"inc\",",
    c!"\t\t\t\t\t\t\"event\": \"batteryStatus.out.MissionCritical\",",
    c!"\t\t\t\t\t\t\"next\": [",
    c!"\t\t\t\t\t\t\t{",
    c!"\t\t\t\t\t\t\t\t\"tests\": [",
    c!"\t\t\t\t\t\t\t\t\t\"b4d\"",
    c!"\t\t\t\t\t\t\t\t],",
    c!"\t\t\t\t\t\t\t\t\"outcome\": \"pass\",",
    c!"\t\t\t\t\t\t\t\t\"event\": \"batteryStatus.out.Ok\",",
    c!"\t\t\t\t\t\t\t\t\"next\": [",
    c!"\t\t\t\t\t\t\t\t\t{",
    c!"\t\t\t\t\t\t\t\t\t\t\"tests\": [",
    c!"\t\t\t\t\t\t\t\t\t\t\t\"b4d\"",
    c!"\t\t\t\t\t\t\t\t\t\t],",
    c!"\t\t\t\t\t\t\t\t\t\t\"outcome\": \"fail\"",
    c!"\t\t\t\t\t\t\t\t\t}",
    c!"\t\t\t\t\t\t\t\t]",
    c!"\t\t\t\t\t\t\t}",
    c!"\t\t\t\t\t\t]",
    c!"\t\t\t\t\t}",
    c!"\t\t\t\t]",
    c!"\t\t\t}",
    c!"\t\t]",
    c!"\t},",
    c!"\t\"b4e\": {",
    c!"\t\t\"tests\": [",
    c!"\t\t\t\"b4e\"",
    c!"\t\t],",
    c!"\t\t\"next\": [",
    c!"\t\t\t{",
    c!"\t\t\t\t\"tests\": [",
    c!"\t\t\t\t\t\"b4e\"",
    c!"\t\t\t\t],",
    c!"\t\t\t\t\"outcome\": \"inc\",",
    c!"\t\t\t\t\"event\": \"batteryInfo.in.30\",",
    c!"\t\t\t\t\"next\": [",
    c!"\t\t\t\t\t{",
    c!"\t\t\t\t\t\t\"tests\": [",
    c!"\t\t\t\t\t\t\t\"b4e\"",
    c!"\t\t\t\t\t\t],",
    c!"\t\t\t\t\t\t\"outcome\": \"inc\",",
    c!"\t\t\t\t\t\t\"event\": \"batteryStatus.out.MissionCritical\",",
    c!"\t\t\t\t\t\t\"next\": [",
    c!"\t\t\t\t\t\t\t{",
    c!"\t\t\t\t\t\t\t\t\"tests\": [",
    c!"\t\t\t\t\t\t\t\t\t\"b4e\"",
    c!"\t\t\t\t\t\t\t\t],",
    c!"\t\t\t\t\t\t\t\t\"outcome\": \"pass\",",
    c!"\t\t\t\t\t\t\t\t\"event\": \"batteryStatus.out.MissionCritical\",",
    c!"\t\t\t\t\t\t\t\t\"next\": [",
    c!"\t\t\t\t\t\t\t\t\t{",
    c!"\t\t\t\t\t\t\t\t\t\t\"tests\": [",
    c!"\t\t\t\t\t\t\t\t\t\t\t\"b4e\"",
    c!"\t\t\t\t\t\t\t\t\t\t],",
    c!"\t\t\t\t\t\t\t\t\t\t\"outcome\": \"fail\"",
    c!"\t\t\t\t\t\t\t\t\t}",
    c!"\t\t\t\t\t\t\t\t]",
    c!"\t\t\t\t\t\t\t}",
    c!"\t\t\t\t\t\t]",
    c!"\t\t\t\t\t}",
    c!"\t\t\t\t]",
    c!"\t\t\t}",
    c!"\t\t]",
    c!"\t},",
    c!"\t\"b4f\": {",
    c!"\t\t\"tests\": [",
    c!"\t\t\t\"b4f\"",
    c!"\t\t],",
    c!"\t\t\"next\": [",
    c!"\t\t\t{",
    c!"\t\t\t\t\"tests\": [",
    c!"\t\t\t\t\t\"b4f\"",
    c!"\t\t\t\t],",
    c!"\t\t\t\t\"outcome\": \"inc\",",
    c!"\t\t\t\t\"event\": \"batteryInfo.in.30\",",
    c!"\t\t\t\t\"next\": [",
    c!"\t\t\t\t\t{",
    c!"\t\t\t\t\t\t\"tests\": [",
    c!"\t\t\t\t\t\t\t\"b4f\"",
    c!"\t\t\t\t\t\t],",
    c!"\t\t\t\t\t\t\"outcome\": \"inc\",",
    c!"\t\t\t\t\t\t\"event\": \"batteryStatus.out.MissionCritical\",",
    c!"\t\t\t\t\t\t\"next\": [",
    c!"\t\t\t\t\t\t\t{",
    c!"\t\t\t\t\t\t\t\t\"tests\": [",
    c!"\t\t\t\t\t\t\t\t\t\"b4f\"",
    c!"\t\t\t\t\t\t\t\t],",
    c!"\t\t\t\t\t\t\t\t\"outcome\": \"pass\",",
    c!"\t\t\t\t\t\t\t\t\"event\": \"batteryStatus.out.SafetyCritical\",",
    c!"\t\t\t\t\t\t\t\t\"next\": [",
    c!"\t\t\t\t\t\t\t\t\t{",
    c!"\t\t\t\t\t\t\t\t\t\t\"tests\": [",
    c!"\t\t\t\t\t\t\t\t\t\t\t\"b4f\"",
    c!"\t\t\t\t\t\t\t\t\t\t],",
    c!"\t\t\t\t\t\t\t\t\t\t\"outcome\": \"fail\"",
    c!"\t\t\t\t\t\t\t\t\t}",
    c!"\t\t\t\t\t\t\t\t]",
    c!"\t\t\t\t\t\t\t}",
    c!"\t\t\t\t\t\t]",
    c!"\t\t\t\t\t}",
    c!"\t\t\t\t]",
    c!"\t\t\t}",
    c!"\t\t]",
    c!"\t},",
    c!"\t\"b4g\": {",
    c!"\t\t\"tests\": [",
    c!"\t\t\t\"b4g\"",
    c!"\t\t],",
    c!"\t\t\"next\": [",
    c!"\t\t\t{",
    c!"\t\t\t\t\"tests\": [",
    c!"\t\t\t\t\t\"b4g\"",
    c!"\t\t\t\t],",
    c!"\t\t\t\t\"outcome\": \"inc\",",
    c!"\t\t\t\t\"event\": \"batteryInfo.in.20\",",
    c!"\t\t\t\t\"next\": [",
    c!"\t\t\t\t\t{",
    c!"\t\t\t\t\t\t\"tests\": [" ]

/-- examples/bmon/tests.json:601-707 -/
def testsJsonLines4 : List Str :=
  [ c!"\t\t\t\t\t\t\t\"b4g\"",
    c!"\t\t\t\t\t\t],",
    c!"\t\t\t\t\t\t\"outcome\": \"inc\",",
    c!"\t\t\t\t\t\t\"event\": \"batteryStatus.out.SafetyCritical\",",
    c!"\t\t\t\t\t\t\"next\": [",
    c!"\t\t\t\t\t\t\t{",
    c!"\t\t\t\t\t\t\t\t\"tests\": [",
    c!"\t\t\t\t\t\t\t\t\t\"b4g\"",
    c!"\t\t\t\t\t\t\t\t],",
    c!"\t\t\t\t\t\t\t\t\"outcome\": \"pass\",",
    c!"\t\t\t\t\t\t\t\t\"event\": \"batteryStatus.out.Ok\",",
    c!"\t\t\t\t\t\t\t\t\"next\": [",
    c!"\t\t\t\t\t\t\t\t\t{",
    c!"\t\t\t\t\t\t\t\t\t\t\"tests\": [",
    c!"\t\t\t\t\t\t\t\t\t\t\t\"b4g\"",
    c!"\t\t\t\t\t\t\t\t\t\t],",
    c!"\t\t\t\t\t\t\t\t\t\t\"outcome\": \"fail\"",
    c!"\t\t\t\t\t\t\t\t\t}",
    c!"\t\t\t\t\t\t\t\t]",
    c!"\t\t\t\t\t\t\t}",
    c!"\t\t\t\t\t\t]",
    c!"\t\t\t\t\t}",
    c!"\t\t\t\t]",
    c!"\t\t\t}",
    c!"\t\t]",
    c!"\t},",
    c!"\t\"b4h\": {",
    c!"\t\t\"tests\": [",
    c!"\t\t\t\"b4h\"",
    c!"\t\t],",
    c!"\t\t\"next\": [",
    c!"\t\t\t{",
    c!"\t\t\t\t\"tests\": [",
    c!"\t\t\t\t\t\"b4h\"",
    c!"\t\t\t\t],",
    c!"\t\t\t\t\"outcome\": \"inc\",",
    c!"\t\t\t\t\"event\": \"batteryInfo.in.20\",",
    c!"\t\t\t\t\"next\": [",
    c!"\t\t\t\t\t{",
    c!"\t\t\t\t\t\t\"tests\": [",
    c!"\t\t\t\t\t\t\t\"b4h\"",
    c!"\t\t\t\t\t\t],",
    c!"\t\t\t\t\t\t\"outcome\": \"inc\",",
    c!"\t\t\t\t\t\t\"event\": \"batteryStatus.out.SafetyCritical\",",
    c!"\t\t\t\t\t\t\"next\": [",
    c!"\t\t\t\t\t\t\t{",
    c!"\t\t\t\t\t\t\t\t\"tests\": [",
    c!"\t\t\t\t\t\t\t\t\t\"b4h\"",
    c!"\t\t\t\t\t\t\t\t],",
    c!"\t\t\t\t\t\t\t\t\"outcome\": \"pass\",",
    c!"\t\t\t\t\t\t\t\t\"event\": \"batteryStatus.out.MissionCritical\",",
    c!"\t\t\t\t\t\t\t\t\"next\": [",
    c!"\t\t\t\t\t\t\t\t\t{",
    c!"\t\t\t\t\t\t\t\t\t\t\"tests\": [",
    c!"\t\t\t\t\t\t\t\t\t\t\t\"b4h\"",
    c!"\t\t\t\t\t\t\t\t\t\t],",
    c!"\t\t\t\t\t\t\t\t\t\t\"outcome\": \"fail\"",
    c!"\t\t\t\t\t\t\t\t\t}",
    c!"\t\t\t\t\t\t\t\t]",
    c!"\t\t\t\t\t\t\t}",
    c!"\t\t\t\t\t\t]",
    c!"\t\t\t\t\t}",
    c!"\t\t\t\t]",
    c!"\t\t\t}",
    c!"\t\t]",
    c!"\t},",
    c!"\t\"b4i\": {",
    c!"\t\t\"tests\": [",
    c!"\t\t\t\"b4i\"",
    c!"\t\t],",
    c!"\t\t\"next\": [",
    c!"\t\t\t{",
    c!"\t\t\t\t\"tests\": [",
    c!"\t\t\t\t\t\"b4i\"",
    c!"\t\t\t\t],",
    c!"\t\t\t\t\"outcome\": \"inc\",",
    c!"\t\t\t\t\"event\": \"batteryInfo.in.20\",",
    c!"\t\t\t\t\"next\": [",
    c!"\t\t\t\t\t{",
    c!"\t\t\t\t\t\t\"tests\": [",
    c!"\t\t\t\t\t\t\t\"b4i\"",
    c!"\t\t\t\t\t\t],",
    c!"\t\t\t\t\t\t\"outcome\": \"inc\",",
    c!"\t\t\t\t\t\t\"event\": \"batteryStatus.out.SafetyCritical\",",
    c!"\t\t\t\t\t\t\"next\": [",
    c!"\t\t\t\t\t\t\t{",
    c!"\t\t\t\t\t\t\t\t\"tests\": [",
    c!"\t\t\t\t\t\t\t\t\t\"b4i\"",
    c!"\t\t\t\t\t\t\t\t],",
    c!"\t\t\t\t\t\t\t\t\"outcome\": \"pass\",",
    c!"\t\t\t\t\t\t\t\t\"event\": \"batteryStatus.out.SafetyCritical\",",
    c!"\t\t\t\t\t\t\t\t\"next\": [",
    c!"\t\t\t\t\t\t\t\t\t{",
    c!"\t\t\t\t\t\t\t\t\t\t\"tests\": [",
    c!"\t\t\t\t\t\t\t\t\t\t\t\"b4i\"",
    c!"\t\t\t\t\t\t\t\t\t\t],",
    c!"\t\t\t\t\t\t\t\t\t\t\"outcome\": \"fail\"",
    c!"\t\t\t\t\t\t\t\t\t}",
    c!"\t\t\t\t\t\t\t\t]",
    c!"\t\t\t\t\t\t\t}",
    c!"\t\t\t\t\t\t]",
    c!"\t\t\t\t\t}",
    c!"\t\t\t\t]",
    c!"\t\t\t}",
    c!"\t\t]",
    c!"\t}",
    c!"}",
    c!"" ]

/-- examples/bmon/tests.json, the whole file -/
def testsJson : Str := TemplateFiles.unlines (testsJsonLines0 ++ testsJsonLines1 ++ testsJsonLines2 ++ testsJsonLines3 ++ testsJsonLines4)

/-- examples/bmon/stms.json:1-150 -/
def stmsJsonLines0 : List Str :=
  [ c!"{",
    c!"\t\"types\": {",
    c!"\t\t\"batteryInfo\": \"nat\",",
    c!"\t\t\"batteryStatus\": \"enum\"",
    c!"\t},",
    c!"\t\"tests\": {",
    c!"\t\t\"b1a\": {",
    c!"\t\t\t\"states\": [",
    c!"\t\t\t\t{",
    c!"\t\t\t\t\t\"id\": \"initial\",",
    c!"\t\t\t\t\t\"transitionSets\": [",
    c!"\t\t\t\t\t\t{",
    c!"\t\t\t\t\t\t\t\"channel\": \"batteryStatus.out\",",
    c!"\t\t\t\t\t\t\t\"transitions\": [",
    c!"\t\t\t\t\t\t\t\t{",
    c!"\t\t\t\t\t\t\t\t\t\"value\": \"Ok\",",
    c!"\t\t\t\t\t\t\t\t\t\"next\": \"step0\"",
    c!"\t\t\t\t\t\t\t\t}",
    c!"\t\t\t\t\t\t\t]",
    c!"\t\t\t\t\t\t}",
    c!"\t\t\t\t\t],",
    c!"\t\t\t\t\t\"verdicts\": {",
    c!"\t\t\t\t\t\t\"b1a\": \"pass\"",
    c!"\t\t\t\t\t}",
    c!"\t\t\t\t},",
    c!"\t\t\t\t{",
    c!"\t\t\t\t\t\"id\": \"step0\",",
    c!"\t\t\t\t\t\"verdicts\": {",
    c!"\t\t\t\t\t\t\"b1a\": \"fail\"",
    c!"\t\t\t\t\t}",
    c!"\t\t\t\t}",
    c!"\t\t\t],",
    c!"\t\t\t\"types\": {",
    c!"\t\t\t\t\"batteryStatus\": \"enum\"",
    c!"\t\t\t},",
    c!"\t\t\t\"tests\": [",
    c!"\t\t\t\t\"b1a\"",
    c!"\t\t\t]",
    c!"\t\t},",
    c!"\t\t\"b1b\": {",
    c!"\t\t\t\"states\": [",
    c!"\t\t\t\t{",
    c!"\t\t\t\t\t\"id\": \"initial\",",
    c!"\t\t\t\t\t\"transitionSets\": [",
    c!"\t\t\t\t\t\t{",
    c!"\t\t\t\t\t\t\t\"channel\": \"batteryStatus.out\",",
    c!"\t\t\t\t\t\t\t\"transitions\": [",
    c!"\t\t\t\t\t\t\t\t{",
    c!"\t\t\t\t\t\t\t\t\t\"value\": \"MissionCritical\",",
    c!"\t\t\t\t\t\t\t\t\t\"next\": \"step0\"",
    c!"\t\t\t\t\t\t\t\t}",
    c!"\t\t\t\t\t\t\t]",
    c!"\t\t\t\t\t\t}",
    c!"\t\t\t\t\t],",
    c!"\t\t\t\t\t\"verdicts\": {",
    c!"\t\t\t\t\t\t\"b1b\": \"pass\"",
    c!"\t\t\t\t\t}",
    c!"\t\t\t\t},",
    c!"\t\t\t\t{",
    c!"\t\t\t\t\t\"id\": \"step0\",",
    c!"\t\t\t\t\t\"verdicts\": {",
    c!"\t\t\t\t\t\t\"b1b\": \"fail\"",
    c!"\t\t\t\t\t}",
    c!"\t\t\t\t}",
    c!"\t\t\t],",
    c!"\t\t\t\"types\": {",
    c!"\t\t\t\t\"batteryStatus\": \"enum\"",
    c!"\t\t\t},",
    c!"\t\t\t\"tests\": [",
    c!"\t\t\t\t\"b1b\"",
    c!"\t\t\t]",
    c!"\t\t},",
    c!"\t\t\"b1c\": {",
    c!"\t\t\t\"states\": [",
    c!"\t\t\t\t{",
    c!"\t\t\t\t\t\"id\": \"initial\",",
    c!"\t\t\t\t\t\"transitionSets\": [",
    c!"\t\t\t\t\t\t{",
    c!"\t\t\t\t\t\t\t\"channel\": \"batteryStatus.out\",",
    c!"\t\t\t\t\t\t\t\"transitions\": [",
    c!"\t\t\t\t\t\t\t\t{",
    c!"\t\t\t\t\t\t\t\t\t\"value\": \"SafetyCritical\",",
    c!"\t\t\t\t\t\t\t\t\t\"next\": \"step0\"",
    c!"\t\t\t\t\t\t\t\t}",
    c!"\t\t\t\t\t\t\t]",
    c!"\t\t\t\t\t\t}",
    c!"\t\t\t\t\t],",
    c!"\t\t\t\t\t\"verdicts\": {",
    c!"\t\t\t\t\t\t\"b1c\": \"pass\"",
    c!"\t\t\t\t\t}",
    c!"\t\t\t\t},",
    c!"\t\t\t\t{",
    c!"\t\t\t\t\t\"id\": \"step0\",",
    c!"\t\t\t\t\t\"verdicts\": {",
    c!"\t\t\t\t\t\t\"b1c\": \"fail\"",
    c!"\t\t\t\t\t}",
    c!"\t\t\t\t}",
    c!"\t\t\t],",
    c!"\t\t\t\"types\": {",
    c!"\t\t\t\t\"batteryStatus\": \"enum\"",
    c!"\t\t\t},",
    c!"\t\t\t\"tests\": [",
    c!"\t\t\t\t\"b1c\"",
    c!"\t\t\t]",
    c!"\t\t},",
    c!"\t\t\"b2a\": {",
    c!"\t\t\t\"states\": [",
    c!"\t\t\t\t{",
    c!"\t\t\t\t\t\"id\": \"initial\",",
    c!"\t\t\t\t\t\"transitionSets\": [",
    c!"\t\t\t\t\t\t{",
    c!"\t\t\t\t\t\t\t\"channel\": \"batteryInfo.in\",",
    c!"\t\t\t\t\t\t\t\"transitions\": [",
    c!"\t\t\t\t\t\t\t\t{",
    c!"\t\t\t\t\t\t\t\t\t\"value\": \"100\",",
    c!"\t\t\t\t\t\t\t\t\t\"next\": \"step0\"",
    c!"\t\t\t\t\t\t\t\t}",
    c!"\t\t\t\t\t\t\t]",
    c!"\t\t\t\t\t\t}",
    c!"\t\t\t\t\t],",
    c!"\t\t\t\t\t\"verdicts\": {",
    c!"\t\t\t\t\t\t\"b2a\": \"inc\"",
    c!"\t\t\t\t\t}",
    c!"\t\t\t\t},",
    c!"\t\t\t\t{",
    c!"\t\t\t\t\t\"id\": \"step0\",",
    c!"\t\t\t\t\t\"transitionSets\": [",
    c!"\t\t\t\t\t\t{",
    c!"\t\t\t\t\t\t\t\"channel\": \"batteryInfo.in\",",
    c!"\t\t\t\t\t\t\t\"transitions\": [",
    c!"\t\t\t\t\t\t\t\t{",
    c!"\t\t\t\t\t\t\t\t\t\"value\": \"100\",",
    c!"\t\t\t\t\t\t\t\t\t\"next\": \"step1\"",
    c!"\t\t\t\t\t\t\t\t}",
    c!"\t\t\t\t\t\t\t]",
    c!"\t\t\t\t\t\t}",
    c!"\t\t\t\t\t],",
    c!"\t\t\t\t\t\"verdicts\": {",
    c!"\t\t\t\t\t\t\"b2a\": \"pass\"",
    c!"\t\t\t\t\t}",
    c!"\t\t\t\t},",
    c!"\t\t\t\t{",
    c!"\t\t\t\t\t\"id\": \"step1\",",
    c!"\t\t\t\t\t\"verdicts\": {",
    c!"\t\t\t\t\t\t\"b2a\": \"fail\"",
    c!"\t\t\t\t\t}",
    c!"\t\t\t\t}",
    c!"\t\t\t],",
    c!"\t\t\t\"types\": {",
    c!"\t\t\t\t\"batteryInfo\": \"nat\"" ]

/-- examples/bmon/stms.json:151-300 -/
def stmsJsonLines1 : List Str :=
  [ c!"\t\t\t},",
    c!"\t\t\t\"tests\": [",
    c!"\t\t\t\t\"b2a\"",
    c!"\t\t\t]",
    c!"\t\t},",
    c!"\t\t\"b2b\": {",
    c!"\t\t\t\"states\": [",
    c!"\t\t\t\t{",
    c!"\t\t\t\t\t\"id\": \"initial\",",
    c!"\t\t\t\t\t\"transitionSets\": [",
    c!"\t\t\t\t\t\t{",
    c!"\t\t\t\t\t\t\t\"channel\": \"batteryInfo.in\",",
    c!"\t\t\t\t\t\t\t\"transitions\": [",
    c!"\t\t\t\t\t\t\t\t{",
    c!"\t\t\t\t\t\t\t\t\t\"value\": \"30\",",
    c!"\t\t\t\t\t\t\t\t\t\"next\": \"step0\"",
    c!"\t\t\t\t\t\t\t\t}",
    c!"\t\t\t\t\t\t\t]",
    c!"\t\t\t\t\t\t}",
    c!"\t\t\t\t\t],",
    c!"\t\t\t\t\t\"verdicts\": {",
    c!"\t\t\t\t\t\t\"b2b\": \"inc\"",
    c!"\t\t\t\t\t}",
    c!"\t\t\t\t},",
    c!"\t\t\t\t{",
    c!"\t\t\t\t\t\"id\": \"step0\",",
    c!"\t\t\t\t\t\"transitionSets\": [",
    c!"\t\t\t\t\t\t{",
    c!"\t\t\t\t\t\t\t\"channel\": \"batteryInfo.in\",",
    c!"\t\t\t\t\t\t\t\"transitions\": [",
    c!"\t\t\t\t\t\t\t\t{",
    c!"\t\t\t\t\t\t\t\t\t\"value\": \"30\",",
    c!"\t\t\t\t\t\t\t\t\t\"next\": \"step1\"",
    c!"\t\t\t\t\t\t\t\t}",
    c!"\t\t\t\t\t\t\t]",
    c!"\t\t\t\t\t\t}",
    c!"\t\t\t\t\t],",
    c!"\t\t\t\t\t\"verdicts\": {",
    c!"\t\t\t\t\t\t\"b2b\": \"pass\"",
    c!"\t\t\t\t\t}",
    c!"\t\t\t\t},",
    c!"\t\t\t\t{",
    c!"\t\t\t\t\t\"id\": \"step1\",",
    c!"\t\t\t\t\t\"verdicts\": {",
    c!"\t\t\t\t\t\t\"b2b\": \"fail\"",
    c!"\t\t\t\t\t}",
    c!"\t\t\t\t}",
    c!"\t\t\t],",
    c!"\t\t\t\"types\": {",
    c!"\t\t\t\t\"batteryInfo\": \"nat\"",
    c!"\t\t\t},",
    c!"\t\t\t\"tests\": [",
    c!"\t\t\t\t\"b2b\"",
    c!"\t\t\t]",
    c!"\t\t},",
    c!"\t\t\"b2c\": {",
    c!"\t\t\t\"states\": [",
    c!"\t\t\t\t{",
    c!"\t\t\t\t\t\"id\": \"initial\",",
    c!"\t\t\t\t\t\"transitionSets\": [",
    c!"\t\t\t\t\t\t{",
    c!"\t\t\t\t\t\t\t\"channel\": \"batteryInfo.in\",",
    c!"\t\t\t\t\t\t\t\"transitions\": [",
    c!"\t\t\t\t\t\t\t\t{",
    c!"\t\t\t\t\t\t\t\t\t\"value\": \"20\",",
    c!"\t\t\t\t\t\t\t\t\t\"next\": \"step0\"",
    c!"\t\t\t\t\t\t\t\t}",
    c!"\t\t\t\t\t\t\t]",
    c!"\t\t\t\t\t\t}",
    c!"\t\t\t\t\t],",
    c!"\t\t\t\t\t\"verdicts\": {",
    c!"\t\t\t\t\t\t\"b2c\": \"inc\"",
    c!"\t\t\t\t\t}",
    c!"\t\t\t\t},",
    c!"\t\t\t\t{",
    c!"\t\t\t\t\t\"id\": \"step0\",",
    c!"\t\t\t\t\t\"transitionSets\": [",
    c!"\t\t\t\t\t\t{",
    c!"\t\t\t\t\t\t\t\"channel\": \"batteryInfo.in\",",
    c!"\t\t\t\t\t\t\t\"transitions\": [",
    c!"\t\t\t\t\t\t\t\t{",
    c!"\t\t\t\t\t\t\t\t\t\"value\": \"20\",",
    c!"\t\t\t\t\t\t\t\t\t\"next\": \"step1\"",
    c!"\t\t\t\t\t\t\t\t}",
    c!"\t\t\t\t\t\t\t]",
    c!"\t\t\t\t\t\t}",
    c!"\t\t\t\t\t],",
    c!"\t\t\t\t\t\"verdicts\": {",
    c!"\t\t\t\t\t\t\"b2c\": \"pass\"",
    c!"\t\t\t\t\t}",
    c!"\t\t\t\t},",
    c!"\t\t\t\t{",
    c!"\t\t\t\t\t\"id\": \"step1\",",
    c!"\t\t\t\t\t\"verdicts\": {",
    c!"\t\t\t\t\t\t\"b2c\": \"fail\"",
    c!"\t\t\t\t\t}",
    c!"\t\t\t\t}",
    c!"\t\t\t],",
    c!"\t\t\t\"types\": {",
    c!"\t\t\t\t\"batteryInfo\": \"nat\"",
    c!"\t\t\t},",
    c!"\t\t\t\"tests\": [",
    c!"\t\t\t\t\"b2c\"",
    c!"\t\t\t]",
    c!"\t\t},",
    c!"\t\t\"b3a\": {",
    c!"\t\t\t\"states\": [",
    c!"\t\t\t\t{",
    c!"\t\t\t\t\t\"id\": \"initial\",",
    c!"\t\t\t\t\t\"transitionSets\": [",
    c!"\t\t\t\t\t\t{",
    c!"\t\t\t\t\t\t\t\"channel\": \"batteryInfo.in\",",
    c!"\t\t\t\t\t\t\t\"transitions\": [",
    c!"\t\t\t\t\t\t\t\t{",
    c!"\t\t\t\t\t\t\t\t\t\"value\": \"100\",",
    c!"\t\t\t\t\t\t\t\t\t\"next\": \"step0\"",
    c!"\t\t\t\t\t\t\t\t}",
    c!"\t\t\t\t\t\t\t]",
    c!"\t\t\t\t\t\t}",
    c!"\t\t\t\t\t],",
    c!"\t\t\t\t\t\"verdicts\": {",
    c!"\t\t\t\t\t\t\"b3a\": \"inc\"",
    c!"\t\t\t\t\t}",
    c!"\t\t\t\t},",
    c!"\t\t\t\t{",
    c!"\t\t\t\t\t\"id\": \"step0\",",
    c!"\t\t\t\t\t\"transitionSets\": [",
    c!"\t\t\t\t\t\t{",
    c!"\t\t\t\t\t\t\t\"channel\": \"batteryStatus.out\",",
    c!"\t\t\t\t\t\t\t\"transitions\": [",
    c!"\t\t\t\t\t\t\t\t{",
    c!"\t\t\t\t\t\t\t\t\t\"value\": \"MissionCritical\",",
    c!"\t\t\t\t\t\t\t\t\t\"next\": \"step1\"",
    c!"\t\t\t\t\t\t\t\t}",
    c!"\t\t\t\t\t\t\t]",
    c!"\t\t\t\t\t\t}",
    c!"\t\t\t\t\t],",
    c!"\t\t\t\t\t\"verdicts\": {",
    c!"\t\t\t\t\t\t\"b3a\": \"pass\"",
    c!"\t\t\t\t\t}",
    c!"\t\t\t\t},",
    c!"\t\t\t\t{",
    c!"\t\t\t\t\t\"id\": \"step1\",",
    c!"\t\t\t\t\t\"verdicts\": {",
    c!"\t\t\t\t\t\t\"b3a\": \"fail\"",
    c!"\t\t\t\t\t}",
    c!"\t\t\t\t}",
    c!"\t\t\t],",
    c!"\t\t\t\"types\": {",
    c!"\t\t\t\t\"batteryInfo\": \"nat\"," ]

/-- examples/bmon/stms.json:301-450 -/
def stmsJsonLines2 : List Str :=
  [ c!"\t\t\t\t\"batteryStatus\": \"enum\"",
    c!"\t\t\t},",
    c!"\t\t\t\"tests\": [",
    c!"\t\t\t\t\"b3a\"",
    c!"\t\t\t]",
    c!"\t\t},",
    c!"\t\t\"b3b\": {",
    c!"\t\t\t\"states\": [",
    c!"\t\t\t\t{",
    c!"\t\t\t\t\t\"id\": \"initial\",",
    c!"\t\t\t\t\t\"transitionSets\": [",
    c!"\t\t\t\t\t\t{",
    c!"\t\t\t\t\t\t\t\"channel\": \"batteryInfo.in\",",
    c!"\t\t\t\t\t\t\t\"transitions\": [",
    c!"\t\t\t\t\t\t\t\t{",
    c!"\t\t\t\t\t\t\t\t\t\"value\": \"100\",",
    c!"\t\t\t\t\t\t\t\t\t\"next\": \"step0\"",
    c!"\t\t\t\t\t\t\t\t}",
    c!"\t\t\t\t\t\t\t]",
    c!"\t\t\t\t\t\t}",
    c!"\t\t\t\t\t],",
    c!"\t\t\t\t\t\"verdicts\": {",
    c!"\t\t\t\t\t\t\"b3b\": \"inc\"",
    c!"\t\t\t\t\t}",
    c!"\t\t\t\t},",
    c!"\t\t\t\t{",
    c!"\t\t\t\t\t\"id\": \"step0\",",
    c!"\t\t\t\t\t\"transitionSets\": [",
    c!"\t\t\t\t\t\t{",
    c!"\t\t\t\t\t\t\t\"channel\": \"batteryStatus.out\",",
    c!"\t\t\t\t\t\t\t\"transitions\": [",
    c!"\t\t\t\t\t\t\t\t{",
    c!"\t\t\t\t\t\t\t\t\t\"value\": \"SafetyCritical\",",
    c!"\t\t\t\t\t\t\t\t\t\"next\": \"step1\"",
    c!"\t\t\t\t\t\t\t\t}",
    c!"\t\t\t\t\t\t\t]",
    c!"\t\t\t\t\t\t}",
    c!"\t\t\t\t\t],",
    c!"\t\t\t\t\t\"verdicts\": {",
    c!"\t\t\t\t\t\t\"b3b\": \"pass\"",
    c!"\t\t\t\t\t}",
    c!"\t\t\t\t},",
    c!"\t\t\t\t{",
    c!"\t\t\t\t\t\"id\": \"step1\",",
    c!"\t\t\t\t\t\"verdicts\": {",
    c!"\t\t\t\t\t\t\"b3b\": \"fail\"",
    c!"\t\t\t\t\t}",
    c!"\t\t\t\t}",
    c!"\t\t\t],",
    c!"\t\t\t\"types\": {",
    c!"\t\t\t\t\"batteryInfo\": \"nat\",",
    c!"\t\t\t\t\"batteryStatus\": \"enum\"",
    c!"\t\t\t},",
    c!"\t\t\t\"tests\": [",
    c!"\t\t\t\t\"b3b\"",
    c!"\t\t\t]",
    c!"\t\t},",
    c!"\t\t\"b3c\": {",
    c!"\t\t\t\"states\": [",
    c!"\t\t\t\t{",
    c!"\t\t\t\t\t\"id\": \"initial\",",
    c!"\t\t\t\t\t\"transitionSets\": [",
    c!"\t\t\t\t\t\t{",
    c!"\t\t\t\t\t\t\t\"channel\": \"batteryInfo.in\",",
    c!"\t\t\t\t\t\t\t\"transitions\": [",
    c!"\t\t\t\t\t\t\t\t{",
    c!"\t\t\t\t\t\t\t\t\t\"value\": \"30\",",
    c!"\t\t\t\t\t\t\t\t\t\"next\": \"step0\"",
    c!"\t\t\t\t\t\t\t\t}",
    c!"\t\t\t\t\t\t\t]",
    c!"\t\t\t\t\t\t}",
    c!"\t\t\t\t\t],",
    c!"\t\t\t\t\t\"verdicts\": {",
    c!"\t\t\t\t\t\t\"b3c\": \"inc\"",
    c!"\t\t\t\t\t}",
    c!"\t\t\t\t},",
    c!"\t\t\t\t{",
    c!"\t\t\t\t\t\"id\": \"step0\",",
    c!"\t\t\t\t\t\"transitionSets\": [",
    c!"\t\t\t\t\t\t{",
    c!"\t\t\t\t\t\t\t\"channel\": \"batteryStatus.out\",",
    c!"\t\t\t\t\t\t\t\"transitions\": [",
    c!"\t\t\t\t\t\t\t\t{",
    c!"\t\t\t\t\t\t\t\t\t\"value\": \"Ok\",",
    c!"\t\t\t\t\t\t\t\t\t\"next\": \"step1\"",
    c!"\t\t\t\t\t\t\t\t}",
    c!"\t\t\t\t\t\t\t]",
    c!"\t\t\t\t\t\t}",
    c!"\t\t\t\t\t],",
    c!"\t\t\t\t\t\"verdicts\": {",
    c!"\t\t\t\t\t\t\"b3c\": \"pass\"",
    c!"\t\t\t\t\t}",
    c!"\t\t\t\t},",
    c!"\t\t\t\t{",
    c!"\t\t\t\t\t\"id\": \"step1\",",
    c!"\t\t\t\t\t\"verdicts\": {",
    c!"\t\t\t\t\t\t\"b3c\": \"fail\"",
    c!"\t\t\t\t\t}",
    c!"\t\t\t\t}",
    c!"\t\t\t],",
    c!"\t\t\t\"types\": {",
    c!"\t\t\t\t\"batteryInfo\": \"nat\",",
    c!"\t\t\t\t\"batteryStatus\": \"enum\"",
    c!"\t\t\t},",
    c!"\t\t\t\"tests\": [",
    c!"\t\t\t\t\"b3c\"",
    c!"\t\t\t]",
    c!"\t\t},",
    c!"\t\t\"b3d\": {",
    c!"\t\t\t\"states\": [",
    c!"\t\t\t\t{",
    c!"\t\t\t\t\t\"id\": \"initial\",",
    c!"\t\t\t\t\t\"transitionSets\": [",
    c!"\t\t\t\t\t\t{",
    c!"\t\t\t\t\t\t\t\"channel\": \"batteryInfo.in\",",
    c!"\t\t\t\t\t\t\t\"transitions\": [",
    c!"\t\t\t\t\t\t\t\t{",
    c!"\t\t\t\t\t\t\t\t\t\"value\": \"30\",",
    c!"\t\t\t\t\t\t\t\t\t\"next\": \"step0\"",
    c!"\t\t\t\t\t\t\t\t}",
    c!"\t\t\t\t\t\t\t]",
    c!"\t\t\t\t\t\t}",
    c!"\t\t\t\t\t],",
    c!"\t\t\t\t\t\"verdicts\": {",
    c!"\t\t\t\t\t\t\"b3d\": \"inc\"",
    c!"\t\t\t\t\t}",
    c!"\t\t\t\t},",
    c!"\t\t\t\t{",
    c!"\t\t\t\t\t\"id\": \"step0\",",
    c!"\t\t\t\t\t\"transitionSets\": [",
    c!"\t\t\t\t\t\t{",
    c!"\t\t\t\t\t\t\t\"channel\": \"batteryStatus.out\",",
    c!"\t\t\t\t\t\t\t\"transitions\": [",
    c!"\t\t\t\t\t\t\t\t{",
    c!"\t\t\t\t\t\t\t\t\t\"value\": \"SafetyCritical\",",
    c!"\t\t\t\t\t\t\t\t\t\"next\": \"step1\"",
    c!"\t\t\t\t\t\t\t\t}",
    c!"\t\t\t\t\t\t\t]",
    c!"\t\t\t\t\t\t}",
    c!"\t\t\t\t\t],",
    c!"\t\t\t\t\t\"verdicts\": {",
    c!"\t\t\t\t\t\t\"b3d\": \"pass\"",
    c!"\t\t\t\t\t}",
    c!"\t\t\t\t},",
    c!"\t\t\t\t{",
    c!"\t\t\t\t\t\"id\": \"step1\",",
    c!"\t\t\t\t\t\"verdicts\": {",
    c!"\t\t\t\t\t\t\"b3d\": \"fail\"",
    c!"\t\t\t\t\t}",
    c!"\t\t\t\t}" ]

/-- examples/bmon/stms.json:451-600 -/
def stmsJsonLines3 : List Str :=
  [ c!"\t\t\t],",
    c!"\t\t\t\"types\": {",
    c!"\t\t\t\t\"batteryInfo\": \"nat\",",
    c!"\t\t\t\t\"batteryStatus\": \"enum\"",
    c!"\t\t\t},",
    c!"\t\t\t\"tests\": [",
    c!"\t\t\t\t\"b3d\"",
    c!"\t\t\t]",
    c!"\t\t},",
    c!"\t\t\"b3e\": {",
    c!"\t\t\t\"states\": [",
    c!"\t\t\t\t{",
    c!"\t\t\t\t\t\"id\": \"initial\",",
    c!"\t\t\t\t\t\"transitionSets\": [",
    c!"\t\t\t\t\t\t{",
    c!"\t\t\t\t\t\t\t\"channel\": \"batteryInfo.in\",",
    c!"\t\t\t\t\t\t\t\"transitions\": [",
    c!"\t\t\t\t\t\t\t\t{",
    c!"\t\t\t\t\t\t\t\t\t\"value\": \"20\",",
    c!"\t\t\t\t\t\t\t\t\t\"next\": \"step0\"",
    c!"\t\t\t\t\t\t\t\t}",
    c!"\t\t\t\t\t\t\t]",
    c!"\t\t\t\t\t\t}",
    c!"\t\t\t\t\t],",
    c!"\t\t\t\t\t\"verdicts\": {",
    c!"\t\t\t\t\t\t\"b3e\": \"inc\"",
    c!"\t\t\t\t\t}",
    c!"\t\t\t\t},",
    c!"\t\t\t\t{",
    c!"\t\t\t\t\t\"id\": \"step0\",",
    c!"\t\t\t\t\t\"transitionSets\": [",
    c!"\t\t\t\t\t\t{",
    c!"\t\t\t\t\t\t\t\"channel\": \"batteryStatus.out\",",
    c!"\t\t\t\t\t\t\t\"transitions\": [",
    c!"\t\t\t\t\t\t\t\t{",
    c!"\t\t\t\t\t\t\t\t\t\"value\": \"Ok\",",
    c!"\t\t\t\t\t\t\t\t\t\"next\": \"step1\"",
    c!"\t\t\t\t\t\t\t\t}",
    c!"\t\t\t\t\t\t\t]",
    c!"\t\t\t\t\t\t}",
    c!"\t\t\t\t\t],",
    c!"\t\t\t\t\t\"verdicts\": {",
    c!"\t\t\t\t\t\t\"b3e\": \"pass\"",
    c!"\t\t\t\t\t}",
    c!"\t\t\t\t},",
    c!"\t\t\t\t{",
    c!"\t\t\t\t\t\"id\": \"step1\",",
    c!"\t\t\t\t\t\"verdicts\": {",
    c!"\t\t\t\t\t\t\"b3e\": \"fail\"",
    c!"\t\t\t\t\t}",
    c!"\t\t\t\t}",
    c!"\t\t\t],",
    c!"\t\t\t\"types\": {",
    c!"\t\t\t\t\"batteryInfo\": \"nat\",",
    c!"\t\t\t\t\"batteryStatus\": \"enum\"",
    c!"\t\t\t},",
    c!"\t\t\t\"tests\": [",
    c!"\t\t\t\t\"b3e\"",
    c!"\t\t\t]",
    c!"\t\t},",
    c!"\t\t\"b3f\": {",
    c!"\t\t\t\"states\": [",
    c!"\t\t\t\t{",
    c!"\t\t\t\t\t\"id\": \"initial\",",
    c!"\t\t\t\t\t\"transitionSets\": [",
    c!"\t\t\t\t\t\t{",
    c!"\t\t\t\t\t\t\t\"channel\": \"batteryInfo.in\",",
    c!"\t\t\t\t\t\t\t\"transitions\": [",
    c!"\t\t\t\t\t\t\t\t{",
    c!"\t\t\t\t\t\t\t\t\t\"value\": \"20\",",
    c!"\t\t\t\t\t\t\t\t\t\"next\": \"step0\"",
    c!"\t\t\t\t\t\t\t\t}",
    c!"\t\t\t\t\t\t\t]",
    c!"\t\t\t\t\t\t}",
    c!"\t\t\t\t\t],",
    c!"\t\t\t\t\t\"verdicts\": {",
    c!"\t\t\t\t\t\t\"b3f\": \"inc\"",
    c!"\t\t\t\t\t}",
    c!"\t\t\t\t},",
    c!"\t\t\t\t{",
    c!"\t\t\t\t\t\"id\": \"step0\",",
    c!"\t\t\t\t\t\"transitionSets\": [",
    c!"\t\t\t\t\t\t{",
    c!"\t\t\t\t\t\t\t\"channel\": \"batteryStatus.out\",",
    c!"\t\t\t\t\t\t\t\"transitions\": [",
    c!"\t\t\t\t\t\t\t\t{",
    c!"\t\t\t\t\t\t\t\t\t\"value\": \"MissionCritical\",",
    c!"\t\t\t\t\t\t\t\t\t\"next\": \"step1\"",
    c!"\t\t\t\t\t\t\t\t}",
    c!"\t\t\t\t\t\t\t]",
    c!"\t\t\t\t\t\t}",
    c!"\t\t\t\t\t],",
    c!"\t\t\t\t\t\"verdicts\": {",
    c!"\t\t\t\t\t\t\"b3f\": \"pass\"",
    c!"\t\t\t\t\t}",
    c!"\t\t\t\t},",
    c!"\t\t\t\t{",
    c!"\t\t\t\t\t\"id\": \"step1\",",
    c!"\t\t\t\t\t\"verdicts\": {",
    c!"\t\t\t\t\t\t\"b3f\": \"fail\"",
    c!"\t\t\t\t\t}",
    c!"\t\t\t\t}",
    c!"\t\t\t],",
    c!"\t\t\t\"types\": {",
    c!"\t\t\t\t\"batteryInfo\": \"nat\",",
    c!"\t\t\t\t\"batteryStatus\": \"enum\"",
    c!"\t\t\t},",
    c!"\t\t\t\"tests\": [",
    c!"\t\t\t\t\"b3f\"",
    c!"\t\t\t]",
    c!"\t\t},",
    c!"\t\t\"b4a\": {",
    c!"\t\t\t\"states\": [",
    c!"\t\t\t\t{",
    c!"\t\t\t\t\t\"id\": \"initial\",",
    c!"\t\t\t\t\t\"transitionSets\": [",
    c!"\t\t\t\t\t\t{",
    c!"\t\t\t\t\t\t\t\"channel\": \"batteryInfo.in\",",
    c!"\t\t\t\t\t\t\t\"transitions\": [",
    c!"\t\t\t\t\t\t\t\t{",
    c!"\t\t\t\t\t\t\t\t\t\"value\": \"100\",",
    c!"\t\t\t\t\t\t\t\t\t\"next\": \"step0\"",
    c!"\t\t\t\t\t\t\t\t}",
    c!"\t\t\t\t\t\t\t]",
    c!"\t\t\t\t\t\t}",
    c!"\t\t\t\t\t],",
    c!"\t\t\t\t\t\"verdicts\": {",
    c!"\t\t\t\t\t\t\"b4a\": \"inc\"",
    c!"\t\t\t\t\t}",
    c!"\t\t\t\t},",
    c!"\t\t\t\t{",
    c!"\t\t\t\t\t\"id\": \"step0\",",
    c!"\t\t\t\t\t\"transitionSets\": [",
    c!"\t\t\t\t\t\t{",
    c!"\t\t\t\t\t\t\t\"channel\": \"batteryStatus.out\",",
    c!"\t\t\t\t\t\t\t\"transitions\": [",
    c!"\t\t\t\t\t\t\t\t{",
    c!"\t\t\t\t\t\t\t\t\t\"value\": \"Ok\",",
    c!"\t\t\t\t\t\t\t\t\t\"next\": \"step1\"",
    c!"\t\t\t\t\t\t\t\t}",
    c!"\t\t\t\t\t\t\t]",
    c!"\t\t\t\t\t\t}",
    c!"\t\t\t\t\t],",
    c!"\t\t\t\t\t\"verdicts\": {",
    c!"\t\t\t\t\t\t\"b4a\": \"inc\"",
    c!"\t\t\t\t\t}",
    c!"\t\t\t\t},",
    c!"\t\t\t\t{",
    c!"\t\t\t\t\t\"id\": \"step1\",",
    c!"\t\t\t\t\t\"transitionSets\": [" ]

/-- examples/bmon/stms.json:601-750 -/
def stmsJsonLines4 : List Str :=
  [ c!"\t\t\t\t\t\t{",
    c!"\t\t\t\t\t\t\t\"channel\": \"batteryStatus.out\",",
    c!"\t\t\t\t\t\t\t\"transitions\": [",
    c!"\t\t\t\t\t\t\t\t{",
    c!"\t\t\t\t\t\t\t\t\t\"value\": \"Ok\",",
    c!"\t\t\t\t\t\t\t\t\t\"next\": \"step2\"",
    c!"\t\t\t\t\t\t\t\t}",
    c!"\t\t\t\t\t\t\t]",
    c!"\t\t\t\t\t\t}",
    c!"\t\t\t\t\t],",
    c!"\t\t\t\t\t\"verdicts\": {",
    c!"\t\t\t\t\t\t\"b4a\": \"pass\"",
    c!"\t\t\t\t\t}",
    c!"\t\t\t\t},",
    c!"\t\t\t\t{",
    c!"\t\t\t\t\t\"id\": \"step2\",",
    c!"\t\t\t\t\t\"verdicts\": {",
    c!"\t\t\t\t\t\t\"b4a\": \"fail\"",
    c!"\t\t\t\t\t}",
    c!"\t\t\t\t}",
    c!"\t\t\t],",
    c!"\t\t\t\"types\": {",
    c!"\t\t\t\t\"batteryInfo\": \"nat\",",
    c!"\t\t\t\t\"batteryStatus\": \"enum\"",
    c!"\t\t\t},",
    c!"\t\t\t\"tests\": [",
    c!"\t\t\t\t\"b4a\"",
    c!"\t\t\t]",
    c!"\t\t},",
    c!"\t\t\"b4b\": {",
    c!"\t\t\t\"states\": [",
    c!"\t\t\t\t{",
    c!"\t\t\t\t\t\"id\": \"initial\",",
    c!"\t\t\t\t\t\"transitionSets\": [",
    c!"\t\t\t\t\t\t{",
    c!"\t\t\t\t\t\t\t\"channel\": \"batteryInfo.in\",",
    c!"\t\t\t\t\t\t\t\"transitions\": [",
    c!"\t\t\t\t\t\t\t\t{",
    c!"\t\t\t\t\t\t\t\t\t\"value\": \"100\",",
    c!"\t\t\t\t\t\t\t\t\t\"next\": \"step0\"",
    c!"\t\t\t\t\t\t\t\t}",
    c!"\t\t\t\t\t\t\t]",
    c!"\t\t\t\t\t\t}",
    c!"\t\t\t\t\t],",
    c!"\t\t\t\t\t\"verdicts\": {",
    c!"\t\t\t\t\t\t\"b4b\": \"inc\"",
    c!"\t\t\t\t\t}",
    c!"\t\t\t\t},",
    c!"\t\t\t\t{",
    c!"\t\t\t\t\t\"id\": \"step0\",",
    c!"\t\t\t\t\t\"transitionSets\": [",
    c!"\t\t\t\t\t\t{",
    c!"\t\t\t\t\t\t\t\"channel\": \"batteryStatus.out\",",
    c!"\t\t\t\t\t\t\t\"transitions\": [",
    c!"\t\t\t\t\t\t\t\t{",
    c!"\t\t\t\t\t\t\t\t\t\"value\": \"Ok\",",
    c!"\t\t\t\t\t\t\t\t\t\"next\": \"step1\"",
    c!"\t\t\t\t\t\t\t\t}",
    c!"\t\t\t\t\t\t\t]",
    c!"\t\t\t\t\t\t}",
    c!"\t\t\t\t\t],",
    c!"\t\t\t\t\t\"verdicts\": {",
    c!"\t\t\t\t\t\t\"b4b\": \"inc\"",
    c!"\t\t\t\t\t}",
    c!"\t\t\t\t},",
    c!"\t\t\t\t{",
    c!"\t\t\t\t\t\"id\": \"step1\",",
    c!"\t\t\t\t\t\"transitionSets\": [",
    c!"\t\t\t\t\t\t{",
    c!"\t\t\t\t\t\t\t\"channel\": \"batteryStatus.out\",",
    c!"\t\t\t\t\t\t\t\"transitions\": [",
    c!"\t\t\t\t\t\t\t\t{",
    c!"\t\t\t\t\t\t\t\t\t\"value\": \"MissionCritical\",",
    c!"\t\t\t\t\t\t\t\t\t\"next\": \"step2\"",
    c!"\t\t\t\t\t\t\t\t}",
    c!"\t\t\t\t\t\t\t]",
    c!"\t\t\t\t\t\t}",
    c!"\t\t\t\t\t],",
    c!"\t\t\t\t\t\"verdicts\": {",
    c!"\t\t\t\t\t\t\"b4b\": \"pass\"",
    c!"\t\t\t\t\t}",
    c!"\t\t\t\t},",
    c!"\t\t\t\t{",
    c!"\t\t\t\t\t\"id\": \"step2\",",
    c!"\t\t\t\t\t\"verdicts\": {",
    c!"\t\t\t\t\t\t\"b4b\": \"fail\"",
    c!"\t\t\t\t\t}",
    c!"\t\t\t\t}",
    c!"\t\t\t],",
    c!"\t\t\t\"types\": {",
    c!"\t\t\t\t\"batteryInfo\": \"nat\",",
    c!"\t\t\t\t\"batteryStatus\": \"enum\"",
    c!"\t\t\t},",
    c!"\t\t\t\"tests\": [",
    c!"\t\t\t\t\"b4b\"",
    c!"\t\t\t]",
    c!"\t\t},",
    c!"\t\t\"b4c\": {",
    c!"\t\t\t\"states\": [",
    c!"\t\t\t\t{",
    c!"\t\t\t\t\t\"id\": \"initial\",",
    c!"\t\t\t\t\t\"transitionSets\": [",
    c!"\t\t\t\t\t\t{",
    c!"\t\t\t\t\t\t\t\"channel\": \"batteryInfo.in\",",
    c!"\t\t\t\t\t\t\t\"transitions\": [",
    c!"\t\t\t\t\t\t\t\t{",
    c!"\t\t\t\t\t\t\t\t\t\"value\": \"100\",",
    c!"\t\t\t\t\t\t\t\t\t\"next\": \"step0\"",
    c!"\t\t\t\t\t\t\t\t}",
    c!"\t\t\t\t\t\t\t]",
    c!"\t\t\t\t\t\t}",
    c!"\t\t\t\t\t],",
    c!"\t\t\t\t\t\"verdicts\": {",
    c!"\t\t\t\t\t\t\"b4c\": \"inc\"",
    c!"\t\t\t\t\t}",
    c!"\t\t\t\t},",
    c!"\t\t\t\t{",
    c!"\t\t\t\t\t\"id\": \"step0\",",
    c!"\t\t\t\t\t\"transitionSets\": [",
    c!"\t\t\t\t\t\t{",
    c!"\t\t\t\t\t\t\t\"channel\": \"batteryStatus.out\",",
    c!"\t\t\t\t\t\t\t\"transitions\": [",
    c!"\t\t\t\t\t\t\t\t{",
    c!"\t\t\t\t\t\t\t\t\t\"value\": \"Ok\",",
    c!"\t\t\t\t\t\t\t\t\t\"next\": \"step1\"",
    c!"\t\t\t\t\t\t\t\t}",
    c!"\t\t\t\t\t\t\t]",
    c!"\t\t\t\t\t\t}",
    c!"\t\t\t\t\t],",
    c!"\t\t\t\t\t\"verdicts\": {",
    c!"\t\t\t\t\t\t\"b4c\": \"inc\"",
    c!"\t\t\t\t\t}",
    c!"\t\t\t\t},",
    c!"\t\t\t\t{",
    c!"\t\t\t\t\t\"id\": \"step1\",",
    c!"\t\t\t\t\t\"transitionSets\": [",
    c!"\t\t\t\t\t\t{",
    c!"\t\t\t\t\t\t\t\"channel\": \"batteryStatus.out\",",
    c!"\t\t\t\t\t\t\t\"transitions\": [",
    c!"\t\t\t\t\t\t\t\t{",
    c!"\t\t\t\t\t\t\t\t\t\"value\": \"SafetyCritical\",",
    c!"\t\t\t\t\t\t\t\t\t\"next\": \"step2\"",
    c!"\t\t\t\t\t\t\t\t}",
    c!"\t\t\t\t\t\t\t]",
    c!"\t\t\t\t\t\t}",
    c!"\t\t\t\t\t],",
    c!"\t\t\t\t\t\"verdicts\": {",
    c!"\t\t\t\t\t\t\"b4c\": \"pass\"",
    c!"\t\t\t\t\t}",
    c!"\t\t\t\t}," ]

/-- examples/bmon/stms.json:751-900 -/
def stmsJsonLines5 : List Str :=
  [ c!"\t\t\t\t{",
    c!"\t\t\t\t\t\"id\": \"step2\",",
    c!"\t\t\t\t\t\"verdicts\": {",
    c!"\t\t\t\t\t\t\"b4c\": \"fail\"",
    c!"\t\t\t\t\t}",
    c!"\t\t\t\t}",
    c!"\t\t\t],",
    c!"\t\t\t\"types\": {",
    c!"\t\t\t\t\"batteryInfo\": \"nat\",",
    c!"\t\t\t\t\"batteryStatus\": \"enum\"",
    c!"\t\t\t},",
    c!"\t\t\t\"tests\": [",
    c!"\t\t\t\t\"b4c\"",
    c!"\t\t\t]",
    c!"\t\t},",
    c!"\t\t\"b4d\": {",
    c!"\t\t\t\"states\": [",
    c!"\t\t\t\t{",
    c!"\t\t\t\t\t\"id\": \"initial\",",
    c!"\t\t\t\t\t\"transitionSets\": [",
    c!"\t\t\t\t\t\t{",
    c!"\t\t\t\t\t\t\t\"channel\": \"batteryInfo.in\",",
    c!"\t\t\t\t\t\t\t\"transitions\": [",
    c!"\t\t\t\t\t\t\t\t{",
    c!"\t\t\t\t\t\t\t\t\t\"value\": \"30\",",
    c!"\t\t\t\t\t\t\t\t\t\"next\": \"step0\"",
    c!"\t\t\t\t\t\t\t\t}",
    c!"\t\t\t\t\t\t\t]",
    c!"\t\t\t\t\t\t}",
    c!"\t\t\t\t\t],",
    c!"\t\t\t\t\t\"verdicts\": {",
    c!"\t\t\t\t\t\t\"b4d\": \"inc\"",
    c!"\t\t\t\t\t}",
    c!"\t\t\t\t},",
    c!"\t\t\t\t{",
    c!"\t\t\t\t\t\"id\": \"step0\",",
    c!"\t\t\t\t\t\"transitionSets\": [",
    c!"\t\t\t\t\t\t{",
    c!"\t\t\t\t\t\t\t\"channel\": \"batteryStatus.out\",",
    c!"\t\t\t\t\t\t\t\"transitions\": [",
    c!"\t\t\t\t\t\t\t\t{",
    c!"\t\t\t\t\t\t\t\t\t\"value\": \"MissionCritical\",",
    c!"\t\t\t\t\t\t\t\t\t\"next\": \"step1\"",
    c!"\t\t\t\t\t\t\t\t}",
    c!"\t\t\t\t\t\t\t]",
    c!"\t\t\t\t\t\t}",
    c!"\t\t\t\t\t],",
    c!"\t\t\t\t\t\"verdicts\": {",
    c!"\t\t\t\t\t\t\"b4d\": \"inc\"",
    c!"\t\t\t\t\t}",
    c!"\t\t\t\t},",
    c!"\t\t\t\t{",
    c!"\t\t\t\t\t\"id\": \"step1\",",
    c!"\t\t\t\t\t\"transitionSets\": [",
    c!"\t\t\t\t\t\t{",
    c!"\t\t\t\t\t\t\t\"channel\": \"batteryStatus.out\",",
    c!"\t\t\t\t\t\t\t\"transitions\": [",
    c!"\t\t\t\t\t\t\t\t{",
    c!"\t\t\t\t\t\t\t\t\t\"value\": \"Ok\",",
    c!"\t\t\t\t\t\t\t\t\t\"next\": \"step2\"",
    c!"\t\t\t\t\t\t\t\t}",
    c!"\t\t\t\t\t\t\t]",
    c!"\t\t\t\t\t\t}",
    c!"\t\t\t\t\t],",
    c!"\t\t\t\t\t\"verdicts\": {",
    c!"\t\t\t\t\t\t\"b4d\": \"pass\"",
    c!"\t\t\t\t\t}",
    c!"\t\t\t\t},",
    c!"\t\t\t\t{",
    c!"\t\t\t\t\t\"id\": \"step2\",",
    c!"\t\t\t\t\t\"verdicts\": {",
    c!"\t\t\t\t\t\t\"b4d\": \"fail\"",
    c!"\t\t\t\t\t}",
    c!"\t\t\t\t}",
    c!"\t\t\t],",
    c!"\t\t\t\"types\": {",
    c!"\t\t\t\t\"batteryInfo\": \"nat\",",
    c!"\t\t\t\t\"batteryStatus\": \"enum\"",
    c!"\t\t\t},",
    c!"\t\t\t\"tests\": [",
    c!"\t\t\t\t\"b4d\"",
    c!"\t\t\t]",
    c!"\t\t},",
    c!"\t\t\"b4e\": {",
    c!"\t\t\t\"states\": [",
    c!"\t\t\t\t{",
    c!"\t\t\t\t\t\"id\": \"initial\",",
    c!"\t\t\t\t\t\"transitionSets\": [",
    c!"\t\t\t\t\t\t{",
    c!"\t\t\t\t\t\t\t\"channel\": \"batteryInfo.in\",",
    c!"\t\t\t\t\t\t\t\"transitions\": [",
    c!"\t\t\t\t\t\t\t\t{",
    c!"\t\t\t\t\t\t\t\t\t\"value\": \"30\",",
    c!"\t\t\t\t\t\t\t\t\t\"next\": \"step0\"",
    c!"\t\t\t\t\t\t\t\t}",
    c!"\t\t\t\t\t\t\t]",
    c!"\t\t\t\t\t\t}",
    c!"\t\t\t\t\t],",
    c!"\t\t\t\t\t\"verdicts\": {",
    c!"\t\t\t\t\t\t\"b4e\": \"inc\"",
    c!"\t\t\t\t\t}",
    c!"\t\t\t\t},",
    c!"\t\t\t\t{",
    c!"\t\t\t\t\t\"id\": \"step0\",",
    c!"\t\t\t\t\t\"transitionSets\": [",
    c!"\t\t\t\t\t\t{",
    c!"\t\t\t\t\t\t\t\"channel\": \"batteryStatus.out\",",
    c!"\t\t\t\t\t\t\t\"transitions\": [",
    c!"\t\t\t\t\t\t\t\t{",
    c!"\t\t\t\t\t\t\t\t\t\"value\": \"MissionCritical\",",
    c!"\t\t\t\t\t\t\t\t\t\"next\": \"step1\"",
    c!"\t\t\t\t\t\t\t\t}",
    c!"\t\t\t\t\t\t\t]",
    c!"\t\t\t\t\t\t}",
    c!"\t\t\t\t\t],",
    c!"\t\t\t\t\t\"verdicts\": {",
    c!"\t\t\t\t\t\t\"b4e\": \"inc\"",
    c!"\t\t\t\t\t}",
    c!"\t\t\t\t},",
    c!"\t\t\t\t{",
    c!"\t\t\t\t\t\"id\": \"step1\",",
    c!"\t\t\t\t\t\"transitionSets\": [",
    c!"\t\t\t\t\t\t{",
    c!"\t\t\t\t\t\t\t\"channel\": \"batteryStatus.out\",",
    c!"\t\t\t\t\t\t\t\"transitions\": [",
    c!"\t\t\t\t\t\t\t\t{",
    c!"\t\t\t\t\t\t\t\t\t\"value\": \"MissionCritical\",",
    c!"\t\t\t\t\t\t\t\t\t\"next\": \"step2\"",
    c!"\t\t\t\t\t\t\t\t}",
    c!"\t\t\t\t\t\t\t]",
    c!"\t\t\t\t\t\t}",
    c!"\t\t\t\t\t],",
    c!"\t\t\t\t\t\"verdicts\": {",
    c!"\t\t\t\t\t\t\"b4e\": \"pass\"",
    c!"\t\t\t\t\t}",
    c!"\t\t\t\t},",
    c!"\t\t\t\t{",
    c!"\t\t\t\t\t\"id\": \"step2\",",
    c!"\t\t\t\t\t\"verdicts\": {",
    c!"\t\t\t\t\t\t\"b4e\": \"fail\"",
    c!"\t\t\t\t\t}",
    c!"\t\t\t\t}",
    c!"\t\t\t],",
    c!"\t\t\t\"types\": {",
    c!"\t\t\t\t\"batteryInfo\": \"nat\",",
    c!"\t\t\t\t\"batteryStatus\": \"enum\"",
    c!"\t\t\t},",
    c!"\t\t\t\"tests\": [",
    c!"\t\t\t\t\"b4e\"",
    c!"\t\t\t]" ]

/-- examples/bmon/stms.json:901-1050 -/
def stmsJsonLines6 : List Str :=
  [ c!"\t\t},",
    c!"\t\t\"b4f\": {",
    c!"\t\t\t\"states\": [",
    c!"\t\t\t\t{",
    c!"\t\t\t\t\t\"id\": \"initial\",",
    c!"\t\t\t\t\t\"transitionSets\": [",
    c!"\t\t\t\t\t\t{",
    c!"\t\t\t\t\t\t\t\"channel\": \"batteryInfo.in\",",
    c!"\t\t\t\t\t\t\t\"transitions\": [",
    c!"\t\t\t\t\t\t\t\t{",
    c!"\t\t\t\t\t\t\t\t\t\"value\": \"30\",",
    c!"\t\t\t\t\t\t\t\t\t\"next\": \"step0\"",
    c!"\t\t\t\t\t\t\t\t}",
    c!"\t\t\t\t\t\t\t]",
    c!"\t\t\t\t\t\t}",
    c!"\t\t\t\t\t],",
    c!"\t\t\t\t\t\"verdicts\": {",
    c!"\t\t\t\t\t\t\"b4f\": \"inc\"",
    c!"\t\t\t\t\t}",
    c!"\t\t\t\t},",
    c!"\t\t\t\t{",
    c!"\t\t\t\t\t\"id\": \"step0\",",
    c!"\t\t\t\t\t\"transitionSets\": [",
    c!"\t\t\t\t\t\t{",
    c!"\t\t\t\t\t\t\t\"channel\": \"batteryStatus.out\",",
    c!"\t\t\t\t\t\t\t\"transitions\": [",
    c!"\t\t\t\t\t\t\t\t{",
    c!"\t\t\t\t\t\t\t\t\t\"value\": \"MissionCritical\",",
    c!"\t\t\t\t\t\t\t\t\t\"next\": \"step1\"",
    c!"\t\t\t\t\t\t\t\t}",
    c!"\t\t\t\t\t\t\t]",
    c!"\t\t\t\t\t\t}",
    c!"\t\t\t\t\t],",
    c!"\t\t\t\t\t\"verdicts\": {",
    c!"\t\t\t\t\t\t\"b4f\": \"inc\"",
    c!"\t\t\t\t\t}",
    c!"\t\t\t\t},",
    c!"\t\t\t\t{",
    c!"\t\t\t\t\t\"id\": \"step1\",",
    c!"\t\t\t\t\t\"transitionSets\": [",
    c!"\t\t\t\t\t\t{",
    c!"\t\t\t\t\t\t\t\"channel\": \"batteryStatus.out\",",
    c!"\t\t\t\t\t\t\t\"transitions\": [",
    c!"\t\t\t\t\t\t\t\t{",
    c!"\t\t\t\t\t\t\t\t\t\"value\": \"SafetyCritical\",",
    c!"\t\t\t\t\t\t\t\t\t\"next\": \"step2\"",
    c!"\t\t\t\t\t\t\t\t}",
    c!"\t\t\t\t\t\t\t]",
    c!"\t\t\t\t\t\t}",
    c!"\t\t\t\t\t],",
    c!"\t\t\t\t\t\"verdicts\": {",
    c!"\t\t\t\t\t\t\"b4f\": \"pass\"",
    c!"\t\t\t\t\t}",
    c!"\t\t\t\t},",
    c!"\t\t\t\t{",
    c!"\t\t\t\t\t\"id\": \"step2\",",
    c!"\t\t\t\t\t\"verdicts\": {",
    c!"\t\t\t\t\t\t\"b4f\": \"fail\"",
    c!"\t\t\t\t\t}",
    c!"\t\t\t\t}",
    c!"\t\t\t],",
    c!"\t\t\t\"types\": {",
    c!"\t\t\t\t\"batteryInfo\": \"nat\",",
    c!"\t\t\t\t\"batteryStatus\": \"enum\"",
    c!"\t\t\t},",
    c!"\t\t\t\"tests\": [",
    c!"\t\t\t\t\"b4f\"",
    c!"\t\t\t]",
    c!"\t\t},",
    c!"\t\t\"b4g\": {",
    c!"\t\t\t\"states\": [",
    c!"\t\t\t\t{",
    c!"\t\t\t\t\t\"id\": \"initial\",",
    c!"\t\t\t\t\t\"transitionSets\": [",
    c!"\t\t\t\t\t\t{",
    c!"\t\t\t\t\t\t\t\"channel\": \"batteryInfo.in\",",
    c!"\t\t\t\t\t\t\t\"transitions\": [",
    c!"\t\t\t\t\t\t\t\t{",
    c!"\t\t\t\t\t\t\t\t\t\"value\": \"20\",",
    c!"\t\t\t\t\t\t\t\t\t\"next\": \"step0\"",
    c!"\t\t\t\t\t\t\t\t}",
    c!"\t\t\t\t\t\t\t]",
    c!"\t\t\t\t\t\t}",
    c!"\t\t\t\t\t],",
    c!"\t\t\t\t\t\"verdicts\": {",
    c!"\t\t\t\t\t\t\"b4g\": \"inc\"",
    c!"\t\t\t\t\t}",
    c!"\t\t\t\t},",
    c!"\t\t\t\t{",
    c!"\t\t\t\t\t\"id\": \"step0\",",
    c!"\t\t\t\t\t\"transitionSets\": [",
    c!"\t\t\t\t\t\t{",
    c!"\t\t\t\t\t\t\t\"channel\": \"batteryStatus.out\",",
    c!"\t\t\t\t\t\t\t\"transitions\": [",
    c!"\t\t\t\t\t\t\t\t{",
    c!"\t\t\t\t\t\t\t\t\t\"value\": \"SafetyCritical\",",
    c!"\t\t\t\t\t\t\t\t\t\"next\": \"step1\"",
    c!"\t\t\t\t\t\t\t\t}",
    c!"\t\t\t\t\t\t\t]",
    c!"\t\t\t\t\t\t}",
    c!"\t\t\t\t\t],",
    c!"\t\t\t\t\t\"verdicts\": {",
    c!"\t\t\t\t\t\t\"b4g\": \"inc\"",
    c!"\t\t\t\t\t}",
    c!"\t\t\t\t},",
    c!"\t\t\t\t{",
    c!"\t\t\t\t\t\"id\": \"step1\",",
    c!"\t\t\t\t\t\"transitionSets\": [",
    c!"\t\t\t\t\t\t{",
    c!"\t\t\t\t\t\t\t\"channel\": \"batteryStatus.out\",",
    c!"\t\t\t\t\t\t\t\"transitions\": [",
    c!"\t\t\t\t\t\t\t\t{",
    c!"\t\t\t\t\t\t\t\t\t\"value\": \"Ok\",",
    c!"\t\t\t\t\t\t\t\t\t\"next\": \"step2\"",
    c!"\t\t\t\t\t\t\t\t}",
    c!"\t\t\t\t\t\t\t]",
    c!"\t\t\t\t\t\t}",
    c!"\t\t\t\t\t],",
    c!"\t\t\t\t\t\"verdicts\": {",
    c!"\t\t\t\t\t\t\"b4g\": \"pass\"",
    c!"\t\t\t\t\t}",
    c!"\t\t\t\t},",
    c!"\t\t\t\t{",
    c!"\t\t\t\t\t\"id\": \"step2\",",
    c!"\t\t\t\t\t\"verdicts\": {",
    c!"\t\t\t\t\t\t\"b4g\": \"fail\"",
    c!"\t\t\t\t\t}",
    c!"\t\t\t\t}",
    c!"\t\t\t],",
    c!"\t\t\t\"types\": {",
    c!"\t\t\t\t\"batteryInfo\": \"nat\",",
    c!"\t\t\t\t\"batteryStatus\": \"enum\"",
    c!"\t\t\t},",
    c!"\t\t\t\"tests\": [",
    c!"\t\t\t\t\"b4g\"",
    c!"\t\t\t]",
    c!"\t\t},",
    c!"\t\t\"b4h\": {",
    c!"\t\t\t\"states\": [",
    c!"\t\t\t\t{",
    c!"\t\t\t\t\t\"id\": \"initial\",",
    c!"\t\t\t\t\t\"transitionSets\": [",
    c!"\t\t\t\t\t\t{",
    c!"\t\t\t\t\t\t\t\"channel\": \"batteryInfo.in\",",
    c!"\t\t\t\t\t\t\t\"transitions\": [",
    c!"\t\t\t\t\t\t\t\t{",
    c!"\t\t\t\t\t\t\t\t\t\"value\": \"20\",",
    c!"\t\t\t\t\t\t\t\t\t\"next\": \"step0\"",
    c!"\t\t\t\t\t\t\t\t}",
    c!"\t\t\t\t\t\t\t]" ]

/-- examples/bmon/stms.json:1051-1175 -/
def stmsJsonLines7 : List Str :=
  [ c!"\t\t\t\t\t\t}",
    c!"\t\t\t\t\t],",
    c!"\t\t\t\t\t\"verdicts\": {",
    c!"\t\t\t\t\t\t\"b4h\": \"inc\"",
    c!"\t\t\t\t\t}",
    c!"\t\t\t\t},",
    c!"\t\t\t\t{",
    c!"\t\t\t\t\t\"id\": \"step0\",",
    c!"\t\t\t\t\t\"transitionSets\": [",
    c!"\t\t\t\t\t\t{",
    c!"\t\t\t\t\t\t\t\"channel\": \"batteryStatus.out\",",
    c!"\t\t\t\t\t\t\t\"transitions\": [",
    c!"\t\t\t\t\t\t\t\t{",
    c!"\t\t\t\t\t\t\t\t\t\"value\": \"SafetyCritical\",",
    c!"\t\t\t\t\t\t\t\t\t\"next\": \"step1\"",
    c!"\t\t\t\t\t\t\t\t}",
    c!"\t\t\t\t\t\t\t]",
    c!"\t\t\t\t\t\t}",
    c!"\t\t\t\t\t],",
    c!"\t\t\t\t\t\"verdicts\": {",
    c!"\t\t\t\t\t\t\"b4h\": \"inc\"",
    c!"\t\t\t\t\t}",
    c!"\t\t\t\t},",
    c!"\t\t\t\t{",
    c!"\t\t\t\t\t\"id\": \"step1\",",
    c!"\t\t\t\t\t\"transitionSets\": [",
    c!"\t\t\t\t\t\t{",
    c!"\t\t\t\t\t\t\t\"channel\": \"batteryStatus.out\",",
    c!"\t\t\t\t\t\t\t\"transitions\": [",
    c!"\t\t\t\t\t\t\t\t{",
    c!"\t\t\t\t\t\t\t\t\t\"value\": \"MissionCritical\",",
    c!"\t\t\t\t\t\t\t\t\t\"next\": \"step2\"",
    c!"\t\t\t\t\t\t\t\t}",
    c!"\t\t\t\t\t\t\t]",
    c!"\t\t\t\t\t\t}",
    c!"\t\t\t\t\t],",
    c!"\t\t\t\t\t\"verdicts\": {",
    c!"\t\t\t\t\t\t\"b4h\": \"pass\"",
    c!"\t\t\t\t\t}",
    c!"\t\t\t\t},",
    c!"\t\t\t\t{",
    c!"\t\t\t\t\t\"id\": \"step2\",",
    c!"\t\t\t\t\t\"verdicts\": {",
    c!"\t\t\t\t\t\t\"b4h\": \"fail\"",
    c!"\t\t\t\t\t}",
    c!"\t\t\t\t}",
    c!"\t\t\t],",
    c!"\t\t\t\"types\": {",
    c!"\t\t\t\t\"batteryInfo\": \"nat\",",
    c!"\t\t\t\t\"batteryStatus\": \"enum\"",
    c!"\t\t\t},",
    c!"\t\t\t\"tests\": [",
    c!"\t\t\t\t\"b4h\"",
    c!"\t\t\t]",
    c!"\t\t},",
    c!"\t\t\"b4i\": {",
    c!"\t\t\t\"states\": [",
    c!"\t\t\t\t{",
    c!"\t\t\t\t\t\"id\": \"initial\",",
    c!"\t\t\t\t\t\"transitionSets\": [",
    c!"\t\t\t\t\t\t{",
    c!"\t\t\t\t\t\t\t\"channel\": \"batteryInfo.in\",",
    c!"\t\t\t\t\t\t\t\"transitions\": [",
    c!"\t\t\t\t\t\t\t\t{",
    c!"\t\t\t\t\t\t\t\t\t\"value\": \"20\",",
    c!"\t\t\t\t\t\t\t\t\t\"next\": \"step0\"",
    c!"\t\t\t\t\t\t\t\t}",
    c!"\t\t\t\t\t\t\t]",
    c!"\t\t\t\t\t\t}",
    c!"\t\t\t\t\t],",
    c!"\t\t\t\t\t\"verdicts\": {",
    c!"\t\t\t\t\t\t\"b4i\": \"inc\"",
    c!"\t\t\t\t\t}",
    c!"\t\t\t\t},",
    c!"\t\t\t\t{",
    c!"\t\t\t\t\t\"id\": \"step0\",",
    c!"\t\t\t\t\t\"transitionSets\": [",
    c!"\t\t\t\t\t\t{",
    c!"\t\t\t\t\t\t\t\"channel\": \"batteryStatus.out\",",
    c!"\t\t\t\t\t\t\t\"transitions\": [",
    c!"\t\t\t\t\t\t\t\t{",
    c!"\t\t\t\t\t\t\t\t\t\"value\": \"SafetyCritical\",",
    c!"\t\t\t\t\t\t\t\t\t\"next\": \"step1\"",
    c!"\t\t\t\t\t\t\t\t}",
    c!"\t\t\t\t\t\t\t]",
    c!"\t\t\t\t\t\t}",
    c!"\t\t\t\t\t],",
    c!"\t\t\t\t\t\"verdicts\": {",
    c!"\t\t\t\t\t\t\"b4i\": \"inc\"",
    c!"\t\t\t\t\t}",
    c!"\t\t\t\t},",
    c!"\t\t\t\t{",
    c!"\t\t\t\t\t\"id\": \"step1\",",
    c!"\t\t\t\t\t\"transitionSets\": [",
    c!"\t\t\t\t\t\t{",
    c!"\t\t\t\t\t\t\t\"channel\": \"batteryStatus.out\",",
    c!"\t\t\t\t\t\t\t\"transitions\": [",
    c!"\t\t\t\t\t\t\t\t{",
    c!"\t\t\t\t\t\t\t\t\t\"value\": \"SafetyCritical\",",
    c!"\t\t\t\t\t\t\t\t\t\"next\": \"step2\"",
    c!"\t\t\t\t\t\t\t\t}",
    c!"\t\t\t\t\t\t\t]",
    c!"\t\t\t\t\t\t}",
    c!"\t\t\t\t\t],",
    c!"\t\t\t\t\t\"verdicts\": {",
    c!"\t\t\t\t\t\t\"b4i\": \"pass\"",
    c!"\t\t\t\t\t}",
    c!"\t\t\t\t},",
    c!"\t\t\t\t{",
    c!"\t\t\t\t\t\"id\": \"step2\",",
    c!"\t\t\t\t\t\"verdicts\": {",
    c!"\t\t\t\t\t\t\"b4i\": \"fail\"",
    c!"\t\t\t\t\t}",
    c!"\t\t\t\t}",
    c!"\t\t\t],",
    c!"\t\t\t\"types\": {",
    c!"\t\t\t\t\"batteryInfo\": \"nat\",",
    c!"\t\t\t\t\"batteryStatus\": \"enum\"",
    c!"\t\t\t},",
    c!"\t\t\t\"tests\": [",
    c!"\t\t\t\t\"b4i\"",
    c!"\t\t\t]",
    c!"\t\t}",
    c!"\t}",
    c!"}",
    c!"" ]

/-- examples/bmon/stms.json, the whole file -/
def stmsJson : Str := TemplateFiles.unlines (stmsJsonLines0 ++ stmsJsonLines1 ++ stmsJsonLines2 ++ stmsJsonLines3 ++ stmsJsonLines4 ++ stmsJsonLines5 ++ stmsJsonLines6 ++ stmsJsonLines7)

/-- examples/bmon/gen.xml:1-25 -/
def genXmlLines0 : List Str :=
  [ c!"<?xml version=\"1.0\" encoding=\"UTF-8\" ?>",
    c!"<rtcg-gen>",
    c!"    <cpp variant=\"animate\">",
    c!"        <makefile />",
    c!"",
    c!"        <!-- Tell the generator that this channel maps to a float: -->",
    c!"        <channel name=\"batteryInfo\" type=\"float\" />",
    c!"    </cpp>",
    c!"    <cpp variant=\"ros\">",
    c!"        <catkin>",
    c!"            <package>",
    c!"                <buildtool_depend>catkin</buildtool_depend>",
    c!"                <depend>roscpp</depend>",
    c!"                <depend>std_msgs</depend>",
    c!"                <depend>sensor_msgs</depend>",
    c!"            </package>",
    c!"        </catkin>",
    c!"",
    c!"        <include src=\"std_msgs/Float32.h\" />",
    c!"        <include src=\"sensor_msgs/BatteryState.h\" />",
    c!"",
    c!"        <!-- Tell the generator that this channel maps non-trivially to a ROS type: -->",
    c!"        <channel name=\"batteryInfo\" type=\"sensor_msgs::BatteryState\" />",
    c!"    </cpp>",
    c!"</rtcg-gen>" ]

/-- examples/bmon/gen.xml, the whole file -/
def genXml : Str := TemplateFiles.unlines (genXmlLines0)

/-- examples/bmon/animate/src/convert/convert.cpp:1-12 -/
def animateConvertLines0 : List Str :=
  [ c!"// Conversion functions for battery messages.",
    c!"",
    c!"unsigned int fromBatteryInfo(const float msg)",
    c!"{",
    c!"  // Model is nat 0-100, ROS is float 0.0-1.0",
    c!"  return static_cast<unsigned int>(msg * 100);",
    c!"}",
    c!"",
    c!"float toBatteryInfo(unsigned int value)",
    c!"{",
    c!"  return static_cast<float>(value) / 100.0;",
    c!"}",
    c!"" ]

/-- examples/bmon/animate/src/convert/convert.cpp, the whole file -/
def animateConvert : Str := TemplateFiles.unlines (animateConvertLines0)

/-- examples/bmon/ros/src/convert/convert.cpp:1-21 -/
def rosConvertLines0 : List Str :=
  [ c!"// Conversion functions for battery messages.",
    c!"//",
    c!"// The test driver models these as unsigned integers, whereas in ROS they are",
    c!"// BatteryState messages.",
    c!"",
    c!"#include \"sensor_msgs/BatteryState.h\"",
    c!"",
    c!"unsigned int fromBatteryInfo(const sensor_msgs::BatteryState::ConstPtr& msg)",
    c!"{",
    c!"  // Model is nat 0-100, ROS is float 0.0-1.0",
    c!"  return static_cast<unsigned int>(msg->percentage * 100);",
    c!"}",
    c!"",
    c!"sensor_msgs::BatteryState toBatteryInfo(unsigned int value)",
    c!"{",
    c!"  sensor_msgs::BatteryState msg;",
    c!"",
    c!"  msg.percentage = static_cast<float>(value) / 100.0;",
    c!"",
    c!"  return msg;",
    c!"}",
    c!"" ]

/-- examples/bmon/ros/src/convert/convert.cpp, the whole file -/
def rosConvert : Str := TemplateFiles.unlines (rosConvertLines0)

/-- internal/gen/config/testdata/valid1.xml:1-15 -/
def configValid1Lines0 : List Str :=
  [ c!"<?xml version=\"1.0\" encoding=\"UTF-8\" ?>",
    c!"<rtcg-gen>",
    c!"    <cpp variant=\"animate\">",
    c!"        <makefile />",
    c!"    </cpp>",
    c!"    <cpp variant=\"ros\">",
    c!"        <include src=\"std_msgs/Float32.h\" />",
    c!"        <include src=\"sensor_msgs/BatteryState.h\" />",
    c!"        <catkin>",
    c!"            <package format=\"2\">",
    c!"                <name>bmon-${NAME}</name>",
    c!"            </package>",
    c!"        </catkin>",
    c!"    </cpp>",
    c!"</rtcg-gen>" ]

/-- internal/gen/config/testdata/valid1.xml, the whole file -/
def configValid1 : Str := TemplateFiles.unlines (configValid1Lines0)

/-- internal/gen/catkin/testdata/valid1.xml:1-12 -/
def packageValid1Lines0 : List Str :=
  [ c!"<?xml version=\"1.0\" encoding=\"UTF-8\" ?>",
    c!"<package format=\"2\">",
    c!"    <name>test</name>",
    c!"    <version>0.0.0</version>",
    c!"    <description>Test driver 'test'</description>",
    c!"    <maintainer email=\"matt.windsor@york.ac.uk\">Matt Windsor</maintainer>",
    c!"    <license>MIT</license>",
    c!"    <buildtool_depend>catkin</buildtool_depend>",
    c!"    <depend>roscpp</depend>",
    c!"    <depend>sensor_msgs</depend>",
    c!"    <depend>std_msgs</depend>",
    c!"</package>",
    c!"" ]

/-- internal/gen/catkin/testdata/valid1.xml, the whole file -/
def packageValid1 : Str := TemplateFiles.unlines (packageValid1Lines0)

/-! The value that examples/bmon/stms.json is the text of. -/

/-- the machine of b1a in examples/bmon/stms.json -/
def stm_b1a : Json :=
  .obj [(c!"states", .arr [.obj [(c!"id", .str c!"initial"), (c!"transitionSets", .arr [.obj [(c!"channel", .str c!"batteryStatus.out"), (c!"transitions", .arr [.obj [(c!"value", .str c!"Ok"), (c!"next", .str c!"step0")]])]]), (c!"verdicts", .obj [(c!"b1a", .str c!"pass")])], .obj [(c!"id", .str c!"step0"), (c!"verdicts", .obj [(c!"b1a", .str c!"fail")])]]), (c!"types", .obj [(c!"batteryStatus", .str c!"enum")]), (c!"tests", .arr [.str c!"b1a"])]

/-- the machine of b1b in examples/bmon/stms.json -/
def stm_b1b : Json :=
  .obj [(c!"states", .arr [.obj [(c!"id", .str c!"initial"), (c!"transitionSets", .arr [.obj [(c!"channel", .str c!"batteryStatus.out"), (c!"transitions", .arr [.obj [(c!"value", .str c!"MissionCritical"), (c!"next", .str c!"step0")]])]]), (c!"verdicts", .obj [(c!"b1b", .str c!"pass")])], .obj [(c!"id", .str c!"step0"), (c!"verdicts", .obj [(c!"b1b", .str c!"fail")])]]), (c!"types", .obj [(c!"batteryStatus", .str c!"enum")]), (c!"tests", .arr [.str c!"b1b"])]

/-- the machine of b1c in examples/bmon/stms.json -/
def stm_b1c : Json :=
  .obj [(c!"states", .arr [.obj [(c!"id", .str c!"initial"), (c!"transitionSets", .arr [.obj [(c!"channel", .str c!"batteryStatus.out"), (c!"transitions", .arr [.obj [(c!"value", .str c!"SafetyCritical"), (c!"next", .str c!"step0")]])]]), (c!"verdicts", .obj [(c!"b1c", .str c!"pass")])], .obj [(c!"id", .str c!"step0"), (c!"verdicts", .obj [(c!"b1c", .str c!"fail")])]]), (c!"types", .obj [(c!"batteryStatus", .str c!"enum")]), (c!"tests", .arr [.str c!"b1c"])]

/-- the machine of b2a in examples/bmon/stms.json -/
def stm_b2a : Json :=
  .obj [(c!"states", .arr [.obj [(c!"id", .str c!"initial"), (c!"transitionSets", .arr [.obj [(c!"channel", .str c!"batteryInfo.in"), (c!"transitions", .arr [.obj [(c!"value", .str c!"100"), (c!"next", .str c!"step0")]])]]), (c!"verdicts", .obj [(c!"b2a", .str c!"inc")])], .obj [(c!"id", .str c!"step0"), (c!"transitionSets", .arr [.obj [(c!"channel", .str c!"batteryInfo.in"), (c!"transitions", .arr [.obj [(c!"value", .str c!"100"), (c!"next", .str c!"step1")]])]]), (c!"verdicts", .obj [(c!"b2a", .str c!"pass")])], .obj [(c!"id", .str c!"step1"), (c!"verdicts", .obj [(c!"b2a", .str c!"fail")])]]), (c!"types", .obj [(c!"batteryInfo", .str c!"nat")]), (c!"tests", .arr [.str c!"b2a"])]

/-- the machine of b2b in examples/bmon/stms.json -/
def stm_b2b : Json :=
  .obj [(c!"states", .arr [.obj [(c!"id", .str c!"initial"), (c!"transitionSets", .arr [.obj [(c!"channel", .str c!"batteryInfo.in"), (c!"transitions", .arr [.obj [(c!"value", .str c!"30"), (c!"next", .str c!"step0")]])]]), (c!"verdicts", .obj [(c!"b2b", .str c!"inc")])], .obj [(c!"id", .str c!"step0"), (c!"transitionSets", .arr [.obj [(c!"channel", .str c!"batteryInfo.in"), (c!"transitions", .arr [.obj [(c!"value", .str c!"30"), (c!"next", .str c!"step1")]])]]), (c!"verdicts", .obj [(c!"b2b", .str c!"pass")])], .obj [(c!"id", .str c!"step1"), (c!"verdicts", .obj [(c!"b2b", .str c!"fail")])]]), (c!"types", .obj [(c!"batteryInfo", .str c!"nat")]), (c!"tests", .arr [.str c!"b2b"])]

/-- the machine of b2c in examples/bmon/stms.json -/
def stm_b2c : Json :=
  .obj [(c!"states", .arr [.obj [(c!"id", .str c!"initial"), (c!"transitionSets", .arr [.obj [(c!"channel", .str c!"batteryInfo.in"), (c!"transitions", .arr [.obj [(c!"value", .str c!"20"), (c!"next", .str c!"step0")]])]]), (c!"verdicts", .obj [(c!"b2c", .str c!"inc")])], .obj [(c!"id", .str c!"step0"), (c!"transitionSets", .arr [.obj [(c!"channel", .str c!"batteryInfo.in"), (c!"transitions", .arr [.obj [(c!"value", .str c!"20"), (c!"next", .str c!"step1")]])]]), (c!"verdicts", .obj [(c!"b2c", .str c!"pass")])], .obj [(c!"id", .str c!"step1"), (c!"verdicts", .obj [(c!"b2c", .str c!"fail")])]]), (c!"types", .obj [(c!"batteryInfo", .str c!"nat")]), (c!"tests", .arr [.str c!"b2c"])]

/-- the machine of b3a in examples/bmon/stms.json -/
def stm_b3a : Json :=
  .obj [(c!"states", .arr [.obj [(c!"id", .str c!"initial"), (c!"transitionSets", .arr [.obj [(c!"channel", .str c!"batteryInfo.in"), (c!"transitions", .arr [.obj [(c!"value", .str c!"100"), (c!"next", .str c!"step0")]])]]), (c!"verdicts", .obj [(c!"b3a", .str c!"inc")])], .obj [(c!"id", .str c!"step0"), (c!"transitionSets", .arr [.obj [(c!"channel", .str c!"batteryStatus.out"), (c!"transitions", .arr [.obj [(c!"value", .str c!"MissionCritical"), (c!"next", .str c!"step1")]])]]), (c!"verdicts", .obj [(c!"b3a", .str c!"pass")])], .obj [(c!"id", .str c!"step1"), (c!"verdicts", .obj [(c!"b3a", .str c!"fail")])]]), (c!"types", .obj [(c!"batteryInfo", .str c!"nat"), (c!"batteryStatus", .str c!"enum")]), (c!"tests", .arr [.str c!"b3a"])]

/-- the machine of b3b in examples/bmon/stms.json -/
def stm_b3b : Json :=
  .obj [(c!"states", .arr [.obj [(c!"id", .str c!"initial"), (c!"transitionSets", .arr [.obj [(c!"channel", .str c!"batteryInfo.in"), (c!"transitions", .arr [.obj [(c!"value", .str c!"100"), (c!"next", .str c!"step0")]])]]), (c!"verdicts", .obj [(c!"b3b", .str c!"inc")])], .obj [(c!"id", .str c!"step0"), (c!"transitionSets", .arr [.obj [(c!"channel", .str c!"batteryStatus.out"), (c!"transitions", .arr [.obj [(c!"value", .str c!"SafetyCritical"), (c!"next", .str c!"step1")]])]]), (c!"verdicts", .obj [(c!"b3b", .str c!"pass")])], .obj [(c!"id", .str c!"step1"), (c!"verdicts", .obj [(c!"b3b", .str c!"fail")])]]), (c!"types", .obj [(c!"batteryInfo", .str c!"nat"), (c!"batteryStatus", .str c!"enum")]), (c!"tests", .arr [.str c!"b3b"])]

/-- the machine of b3c in examples/bmon/stms.json -/
def stm_b3c : Json :=
  .obj [(c!"states", .arr [.obj [(c!"id", .str c!"initial"), (c!"transitionSets", .arr [.obj [(c!"channel", .str c!"batteryInfo.in"), (c!"transitions", .arr [.obj [(c!"value", .str c!"30"), (c!"next", .str c!"step0")]])]]), (c!"verdicts", .obj [(c!"b3c", .str c!"inc")])], .obj [(c!"id", .str c!"step0"), (c!"transitionSets", .arr [.obj [(c!"channel", .str c!"batteryStatus.out"), (c!"transitions", .arr [.obj [(c!"value", .str c!"Ok"), (c!"next", .str c!"step1")]])]]), (c!"verdicts", .obj [(c!"b3c", .str c!"pass")])], .obj [(c!"id", .str c!"step1"), (c!"verdicts", .obj [(c!"b3c", .str c!"fail")])]]), (c!"types", .obj [(c!"batteryInfo", .str c!"nat"), (c!"batteryStatus", .str c!"enum")]), (c!"tests", .arr [.str c!"b3c"])]

/-- the machine of b3d in examples/bmon/stms.json -/
def stm_b3d : Json :=
  .obj [(c!"states", .arr [.obj [(c!"id", .str c!"initial"), (c!"transitionSets", .arr [.obj [(c!"channel", .str c!"batteryInfo.in"), (c!"transitions", .arr [.obj [(c!"value", .str c!"30"), (c!"next", .str c!"step0")]])]]), (c!"verdicts", .obj [(c!"b3d", .str c!"inc")])], .obj [(c!"id", .str c!"step0"), (c!"transitionSets", .arr [.obj [(c!"channel", .str c!"batteryStatus.out"), (c!"transitions", .arr [.obj [(c!"value", .str c!"SafetyCritical"), (c!"next", .str c!"step1")]])]]), (c!"verdicts", .obj [(c!"b3d", .str c!"pass")])], .obj [(c!"id", .str c!"step1"), (c!"verdicts", .obj [(c!"b3d", .str c!"fail")])]]), (c!"types", .obj [(c!"batteryInfo", .str c!"nat"), (c!"batteryStatus", .str c!"enum")]), (c!"tests", .arr [.str c!"b3d"])]

/-- the machine of b3e in examples/bmon/stms.json -/
def stm_b3e : Json :=
  .obj [(c!"states", .arr [.obj [(c!"id", .str c!"initial"), (c!"transitionSets", .arr [.obj [(c!"channel", .str c!"batteryInfo.in"), (c!"transitions", .arr [.obj [(c!"value", .str c!"20"), (c!"next", .str c!"step0")]])]]), (c!"verdicts", .obj [(c!"b3e", .str c!"inc")])], .obj [(c!"id", .str c!"step0"), (c!"transitionSets", .arr [.obj [(c!"channel", .str c!"batteryStatus.out"), (c!"transitions", .arr [.obj [(c!"value", .str c!"Ok"), (c!"next", .str c!"step1")]])]]), (c!"verdicts", .obj [(c!"b3e", .str c!"pass")])], .obj [(c!"id", .str c!"step1"), (c!"verdicts", .obj [(c!"b3e", .str c!"fail")])]]), (c!"types", .obj [(c!"batteryInfo", .str c!"nat"), (c!"batteryStatus", .str c!"enum")]), (c!"tests", .arr [.str c!"b3e"])]

/-- the machine of b3f in examples/bmon/stms.json -/
def stm_b3f : Json :=
  .obj [(c!"states", .arr [.obj [(c!"id", .str c!"initial"), (c!"transitionSets", .arr [.obj [(c!"channel", .str c!"batteryInfo.in"), (c!"transitions", .arr [.obj [(c!"value", .str c!"20"), (c!"next", .str c!"step0")]])]]), (c!"verdicts", .obj [(c!"b3f", .str c!"inc")])], .obj [(c!"id", .str c!"step0"), (c!"transitionSets", .arr [.obj [(c!"channel", .str c!"batteryStatus.out"), (c!"transitions", .arr [.obj [(c!"value", .str c!"MissionCritical"), (c!"next", .str c!"step1")]])]]), (c!"verdicts", .obj [(c!"b3f", .str c!"pass")])], .obj [(c!"id", .str c!"step1"), (c!"verdicts", .obj [(c!"b3f", .str c!"fail")])]]), (c!"types", .obj [(c!"batteryInfo", .str c!"nat"), (c!"batteryStatus", .str c!"enum")]), (c!"tests", .arr [.str c!"b3f"])]

/-- the machine of b4a in examples/bmon/stms.json -/
def stm_b4a : Json :=
  .obj [(c!"states", .arr [.obj [(c!"id", .str c!"initial"), (c!"transitionSets", .arr [.obj [(c!"channel", .str c!"batteryInfo.in"), (c!"transitions", .arr [.obj [(c!"value", .str c!"100"), (c!"next", .str c!"step0")]])]]), (c!"verdicts", .obj [(c!"b4a", .str c!"inc")])], .obj [(c!"id", .str c!"step0"), (c!"transitionSets", .arr [.obj [(c!"channel", .str c!"batteryStatus.out"), (c!"transitions", .arr [.obj [(c!"value", .str c!"Ok"), (c!"next", .str c!"step1")]])]]), (c!"verdicts", .obj [(c!"b4a", .str c!"inc")])], .obj [(c!"id", .str c!"step1"), (c!"transitionSets", .arr [.obj [(c!"channel", .str c!"batteryStatus.out"), (c!"transitions", .arr [.obj [(c!"value", .str c!"Ok"), (c!"next", .str c!"step2")]])]]), (c!"verdicts", .obj [(c!"b4a", .str c!"pass")])], .obj [(c!"id", .str c!"step2"), (c!"verdicts", .obj [(c!"b4a", .str c!"fail")])]]), (c!"types", .obj [(c!"batteryInfo", .str c!"nat"), (c!"batteryStatus", .str c!"enum")]), (c!"tests", .arr [.str c!"b4a"])]

/-- the machine of b4b in examples/bmon/stms.json -/
def stm_b4b : Json :=
  .obj [(c!"states", .arr [.obj [(c!"id", .str c!"initial"), (c!"transitionSets", .arr [.obj [(c!"channel", .str c!"batteryInfo.in"), (c!"transitions", .arr [.obj [(c!"value", .str c!"100"), (c!"next", .str c!"step0")]])]]), (c!"verdicts", .obj [(c!"b4b", .str c!"inc")])], .obj [(c!"id", .str c!"step0"), (c!"transitionSets", .arr [.obj [(c!"channel", .str c!"batteryStatus.out"), (c!"transitions", .arr [.obj [(c!"value", .str c!"Ok"), (c!"next", .str c!"step1")]])]]), (c!"verdicts", .obj [(c!"b4b", .str c!"inc")])], .obj [(c!"id", .str c!"step1"), (c!"transitionSets", .arr [.obj [(c!"channel", .str c!"batteryStatus.out"), (c!"transitions", .arr [.obj [(c!"value", .str c!"MissionCritical"), (c!"next", .str c!"step2")]])]]), (c!"verdicts", .obj [(c!"b4b", .str c!"pass")])], .obj [(c!"id", .str c!"step2"), (c!"verdicts", .obj [(c!"b4b", .str c!"fail")])]]), (c!"types", .obj [(c!"batteryInfo", .str c!"nat"), (c!"batteryStatus", .str c!"enum")]), (c!"tests", .arr [.str c!"b4b"])]

/-- the machine of b4c in examples/bmon/stms.json -/
def stm_b4c : Json :=
  .obj [(c!"states", .arr [.obj [(c!"id", .str c!"initial"), (c!"transitionSets", .arr [.obj [(c!"channel", .str c!"batteryInfo.in"), (c!"transitions", .arr [.obj [(c!"value", .str c!"100"), (c!"next", .str c!"step0")]])]]), (c!"verdicts", .obj [(c!"b4c", .str c!"inc")])], .obj [(c!"id", .str c!"step0"), (c!"transitionSets", .arr [.obj [(c!"channel", .str c!"batteryStatus.out"), (c!"transitions", .arr [.obj [(c!"value", .str c!"Ok"), (c!"next", .str c!"step1")]])]]), (c!"verdicts", .obj [(c!"b4c", .str c!"inc")])], .obj [(c!"id", .str c!"step1"), (c!"transitionSets", .arr [.obj [(c!"channel", .str c!"batteryStatus.out"), (c!"transitions", .arr [.obj [(c!"value", .str c!"SafetyCritical"), (c!"next", .str c!"step2")]])]]), (c!"verdicts", .obj [(c!"b4c", .str c!"pass")])], .obj [(c!"id", .str c!"step2"), (c!"verdicts", .obj [(c!"b4c", .str c!"fail")])]]), (c!"types", .obj [(c!"batteryInfo", .str c!"nat"), (c!"batteryStatus", .str c!"enum")]), (c!"tests", .arr [.str c!"b4c"])]

/-- the machine of b4d in examples/bmon/stms.json -/
def stm_b4d : Json :=
  .obj [(c!"states", .arr [.obj [(c!"id", .str c!"initial"), (c!"transitionSets", .arr [.obj [(c!"channel", .str c!"batteryInfo.in"), (c!"transitions", .arr [.obj [(c!"value", .str c!"30"), (c!"next", .str c!"step0")]])]]), (c!"verdicts", .obj [(c!"b4d", .str c!"inc")])], .obj [(c!"id", .str c!"step0"), (c!"transitionSets", .arr [.obj [(c!"channel", .str c!"batteryStatus.out"), (c!"transitions", .arr [.obj [(c!"value", .str c!"MissionCritical"), (c!"next", .str c!"step1")]])]]), (c!"verdicts", .obj [(c!"b4d", .str c!"inc")])], .obj [(c!"id", .str c!"step1"), (c!"transitionSets", .arr [.obj [(c!"channel", .str c!"batteryStatus.out"), (c!"transitions", .arr [.obj [(c!"value", .str c!"Ok"), (c!"next", .str c!"step2")]])]]), (c!"verdicts", .obj [(c!"b4d", .str c!"pass")])], .obj [(c!"id", .str c!"step2"), (c!"verdicts", .obj [(c!"b4d", .str c!"fail")])]]), (c!"types", .obj [(c!"batteryInfo", .str c!"nat"), (c!"batteryStatus", .str c!"enum")]), (c!"tests", .arr [.str c!"b4d"])]

/-- the machine of b4e in examples/bmon/stms.json -/
def stm_b4e : Json :=
  .obj [(c!"states", .arr [.obj [(c!"id", .str c!"initial"), (c!"transitionSets", .arr [.obj [(c!"channel", .str c!"batteryInfo.in"), (c!"transitions", .arr [.obj [(c!"value", .str c!"30"), (c!"next", .str c!"step0")]])]]), (c!"verdicts", .obj [(c!"b4e", .str c!"inc")])], .obj [(c!"id", .str c!"step0"), (c!"transitionSets", .arr [.obj [(c!"channel", .str c!"batteryStatus.out"), (c!"transitions", .arr [.obj [(c!"value", .str c!"MissionCritical"), (c!"next", .str c!"step1")]])]]), (c!"verdicts", .obj [(c!"b4e", .str c!"inc")])], .obj [(c!"id", .str c!"step1"), (c!"transitionSets", .arr [.obj [(c!"channel", .str c!"batteryStatus.out"), (c!"transitions", .arr [.obj [(c!"value", .str c!"MissionCritical"), (c!"next", .str c!"step2")]])]]), (c!"verdicts", .obj [(c!"b4e", .str c!"pass")])], .obj [(c!"id", .str c!"step2"), (c!"verdicts", .obj [(c!"b4e", .str c!"fail")])]]), (c!"types", .obj [(c!"batteryInfo", .str c!"nat"), (c!"batteryStatus", .str c!"enum")]), (c!"tests", .arr [.str c!"b4e"])]

/-- the machine of b4f in examples/bmon/stms.json -/
def stm_b4f : Json :=
  .obj [(c!"states", .arr [.obj [(c!"id", .str c!"initial"), (c!"transitionSets", .arr [.obj [(c!"channel", .str c!"batteryInfo.in"), (c!"transitions", .arr [.obj [(c!"value", .str c!"30"), (c!"next", .str c!"step0")]])]]), (c!"verdicts", .obj [(c!"b4f", .str c!"inc")])], .obj [(c!"id", .str c!"step0"), (c!"transitionSets", .arr [.obj [(c!"channel", .str c!"batteryStatus.out"), (c!"transitions", .arr [.obj [(c!"value", .str c!"MissionCritical"), (c!"next", .str c!"step1")]])]]), (c!"verdicts", .obj [(c!"b4f", .str c!"inc")])], .obj [(c!"id", .str c!"step1"), (c!"transitionSets", .arr [.obj [(c!"channel", .str c!"batteryStatus.out"), (c!"transitions", .arr [.obj [(c!"value", .str c!"SafetyCritical"), (c!"next", .str c!"step2")]])]]), (c!"verdicts", .obj [(c!"b4f", .str c!"pass")])], .obj [(c!"id", .str c!"step2"), (c!"verdicts", .obj [(c!"b4f", .str c!"fail")])]]), (c!"types", .obj [(c!"batteryInfo", .str c!"nat"), (c!"batteryStatus", .str c!"enum")]), (c!"tests", .arr [.str c!"b4f"])]

/-- the machine of b4g in examples/bmon/stms.json -/
def stm_b4g : Json :=
  .obj [(c!"states", .arr [.obj [(c!"id", .str c!"initial"), (c!"transitionSets", .arr [.obj [(c!"channel", .str c!"batteryInfo.in"), (c!"transitions", .arr [.obj [(c!"value", .str c!"20"), (c!"next", .str c!"step0")]])]]), (c!"verdicts", .obj [(c!"b4g", .str c!"inc")])], .obj [(c!"id", .str c!"step0"), (c!"transitionSets", .arr [.obj [(c!"channel", .str c!"batteryStatus.out"), (c!"transitions", .arr [.obj [(c!"value", .str c!"SafetyCritical"), (c!"next", .str c!"step1")]])]]), (c!"verdicts", .obj [(c!"b4g", .str c!"inc")])], .obj [(c!"id", .str c!"step1"), (c!"transitionSets", .arr [.obj [(c!"channel", .str c!"batteryStatus.out"), (c!"transitions", .arr [.obj [(c!"value", .str c!"Ok"), (c!"next", .str c!"step2")]])]]), (c!"verdicts", .obj [(c!"b4g", .str c!"pass")])], .obj [(c!"id", .str c!"step2"), (c!"verdicts", .obj [(c!"b4g", .str c!"fail")])]]), (c!"types", .obj [(c!"batteryInfo", .str c!"nat"), (c!"batteryStatus", .str c!"enum")]), (c!"tests", .arr [.str c!"b4g"])]

/-- the machine of b4h in examples/bmon/stms.json -/
def stm_b4h : Json :=
  .obj [(c!"states", .arr [.obj [(c!"id", .str c!"initial"), (c!"transitionSets", .arr [.obj [(c!"channel", .str c!"batteryInfo.in"), (c!"transitions", .arr [.obj [(c!"value", .str c!"20"), (c!"next", .str c!"step0")]])]]), (c!"verdicts", .obj [(c!"b4h", .str c!"inc")])], .obj [(c!"id", .str c!"step0"), (c!"transitionSets", .arr [.obj [(c!"channel", .str c!"batteryStatus.out"), (c!"transitions", .arr [.obj [(c!"value", .str c!"SafetyCritical"), (c!"next", .str c!"step1")]])]]), (c!"verdicts", .obj [(c!"b4h", .str c!"inc")])], .obj [(c!"id", .str c!"step1"), (c!"transitionSets", .arr [.obj [(c!"channel", .str c!"batteryStatus.out"), (c!"transitions", .arr [.obj [(c!"value", .str c!"MissionCritical"), (c!"next", .str c!"step2")]])]]), (c!"verdicts", .obj [(c!"b4h", .str c!"pass")])], .obj [(c!"id", .str c!"step2"), (c!"verdicts", .obj [(c!"b4h", .str c!"fail")])]]), (c!"types", .obj [(c!"batteryInfo", .str c!"nat"), (c!"batteryStatus", .str c!"enum")]), (c!"tests", .arr [.str c!"b4h"])]

/-- the machine of b4i in examples/bmon/stms.json -/
def stm_b4i : Json :=
  .obj [(c!"states", .arr [.obj [(c!"id", .str c!"initial"), (c!"transitionSets", .arr [.obj [(c!"channel", .str c!"batteryInfo.in"), (c!"transitions", .arr [.obj [(c!"value", .str c!"20"), (c!"next", .str c!"step0")]])]]), (c!"verdicts", .obj [(c!"b4i", .str c!"inc")])], .obj [(c!"id", .str c!"step0"), (c!"transitionSets", .arr [.obj [(c!"channel", .str c!"batteryStatus.out"), (c!"transitions", .arr [.obj [(c!"value", .str c!"SafetyCritical"), (c!"next", .str c!"step1")]])]]), (c!"verdicts", .obj [(c!"b4i", .str c!"inc")])], .obj [(c!"id", .str c!"step1"), (c!"transitionSets", .arr [.obj [(c!"channel", .str c!"batteryStatus.out"), (c!"transitions", .arr [.obj [(c!"value", .str c!"SafetyCritical"), (c!"next", .str c!"step2")]])]]), (c!"verdicts", .obj [(c!"b4i", .str c!"pass")])], .obj [(c!"id", .str c!"step2"), (c!"verdicts", .obj [(c!"b4i", .str c!"fail")])]]), (c!"types", .obj [(c!"batteryInfo", .str c!"nat"), (c!"batteryStatus", .str c!"enum")]), (c!"tests", .arr [.str c!"b4i"])]

/-- all of examples/bmon/stms.json -/
def stms : Json := .obj [(c!"types", .obj [(c!"batteryInfo", .str c!"nat"), (c!"batteryStatus", .str c!"enum")]),
  (c!"tests", .obj [(c!"b1a", stm_b1a), (c!"b1b", stm_b1b), (c!"b1c", stm_b1c), (c!"b2a", stm_b2a), (c!"b2b", stm_b2b), (c!"b2c", stm_b2c), (c!"b3a", stm_b3a), (c!"b3b", stm_b3b), (c!"b3c", stm_b3c), (c!"b3d", stm_b3d), (c!"b3e", stm_b3e), (c!"b3f", stm_b3f), (c!"b4a", stm_b4a), (c!"b4b", stm_b4b), (c!"b4c", stm_b4c), (c!"b4d", stm_b4d), (c!"b4e", stm_b4e), (c!"b4f", stm_b4f), (c!"b4g", stm_b4g), (c!"b4h", stm_b4h), (c!"b4i", stm_b4i)])]

end ExampleFiles

end Rtcg
