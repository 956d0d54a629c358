import Verif.Props.Lang
import Verif.Props.Csv
import Verif.Props.Tree
import Verif.Props.Trace
import Verif.Props.Stm
import Verif.Props.StmSuite
import Verif.Props.StmAgg
import Verif.Props.Gen
import Verif.Props.Fs
import Verif.Props.Json
import Verif.Props.Harness
import Verif.Props.HarnessTree
import Verif.Props.EndToEnd
import Verif.Props.Templates
import Verif.Props.Make
import Verif.Props.Programs
import Verif.Props.JsonText
import Verif.Props.Run
import Verif.Props.Reasons
import Verif.Props.Xml
import Verif.Props.CMake
import Verif.Props.JsonForm
import Verif.Props.Crash
import Verif.Props.CppText
import Verif.Props.CppRun
import Verif.Props.CppTrace
import Verif.Props.CppSuite
import Verif.Props.CppConvert
import Verif.Props.CppWhole
import Verif.Props.CppPre
import Verif.Props.CppTypes
import Verif.Props.CppValues
import Verif.Props.Conformance
import Verif.Props.Steady
import Verif.Props.Bmon
import Verif.Props.Show
import Verif.Props.Order
import Verif.Props.OrderGen
