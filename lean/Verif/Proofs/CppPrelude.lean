import Verif.Proofs.CppTree
import Verif.Spec.CppRun
import Verif.Model.TemplateFiles

/-
The syntax trees of the prelude, rtcg.h and rtcg.cpp.
-/

namespace Rtcg

namespace Spec

namespace Cpp

namespace Tree

def outcomeNames : List Str := [c!"UNSET", c!"INC", c!"PASS", c!"FAIL"]

def statusNames : List Str := [c!"WAIT_START", c!"WAIT_IN", c!"WAIT_OUT", c!"OFF_SCRIPT", c!"TIMEOUT", c!"FAIL", c!"BUG"]

def cstr : CType := ⟨true, [c!"char"], [c!"*"]⟩

def ostream : CType := ⟨false, [c!"std", c!"ostream"], [c!"&"]⟩

def rtcgHItems : List Item :=
  [.nsOpen c!"rtcg",
   .enum c!"Outcome" outcomeNames,
   .fn (some cstr) [c!"outstr"] [(ty [c!"Outcome"], c!"o")] none,
   .enum c!"Status" statusNames,
   .nsOpen c!"status",
   .fn (some cstr) [c!"explain"] [(ty [c!"Status"], c!"s")] none,
   .fn (some (ty [c!"bool"])) [c!"isRunning"] [(ty [c!"Status"], c!"s")] none,
   .fn (some (ty [c!"int"])) [c!"exitCode"] [(ty [c!"Status"], c!"s")] none,
   .nsClose,
   .clsOpen c!"TestCase" none,
   .access c!"public",
   .fn (some (ty [c!"Status"])) [c!"getStatus"] [] none,
   .access c!"protected",
   .var (ty [c!"Status"]) c!"status_" (some (.name [c!"Status", c!"WAIT_START"])),
   .clsClose,
   .nsClose,
   .fn (some ostream) [c!"operator<<"] [(ostream, c!"stm"), (ty [c!"rtcg", c!"Status"], c!"o")] none,
   .fn (some ostream) [c!"operator<<"] [(ostream, c!"stm"), (ty [c!"rtcg", c!"Outcome"], c!"o")] none]

theorem parse_rtcgH : parse (lex TemplateFiles.rtcgH) = some rtcgHItems := by decide +kernel

/-- `case rtcg::E::X: return s;` -/
def saysCase (e x s : Str) : List Stmt := [.case (.name [c!"rtcg", e, x]), .retVal (.str s)]

def outstrBody : Stmts :=
  stmtsOf [.switch (nm c!"o") (stmtsOf (saysCase c!"Outcome" c!"UNSET" c!"unset" ++ saysCase c!"Outcome" c!"INC" c!"inconclusive" ++
    saysCase c!"Outcome" c!"PASS" c!"passed" ++ saysCase c!"Outcome" c!"FAIL" c!"failed")), .retVal (.str c!"???")]

def explainBody : Stmts :=
  stmtsOf [.switch (nm c!"s") (stmtsOf (saysCase c!"Status" c!"WAIT_START" c!"waiting to start" ++
    saysCase c!"Status" c!"WAIT_IN" c!"waiting for input acknowledgement" ++ saysCase c!"Status" c!"WAIT_OUT" c!"waiting for output" ++
    saysCase c!"Status" c!"OFF_SCRIPT" c!"an event happened that took the test off-script" ++
    saysCase c!"Status" c!"TIMEOUT" c!"the test ran out of time" ++ saysCase c!"Status" c!"FAIL" c!"an unwanted behaviour occurred" ++
    saysCase c!"Status" c!"BUG" c!"an internal error occurred" ++ [.dflt, .retVal (.str c!"unknown (this should not occur)")]))]

def isRunningBody : Stmts :=
  stmtsOf [.switch (nm c!"s") (stmtsOf [.case (.name [c!"Status", c!"WAIT_START"]), .case (.name [c!"Status", c!"WAIT_IN"]),
    .case (.name [c!"Status", c!"WAIT_OUT"]), .retVal (.bool true), .dflt, .retVal (.bool false)])]

def exitCodeBody : Stmts :=
  stmtsOf [.switch (nm c!"s") (stmtsOf [.case (status c!"FAIL"), .retVal (.num c!"1"), .case (status c!"BUG"), .retVal (.num c!"2"),
    .dflt, .retVal (.num c!"0")])]

def shows (q : List Str) : Stmts :=
  stmtsOf [.retVal (.shift (nm c!"stm") (.cons c!"<<" (call q [nm c!"o"]) .nil))]

def rtcgCppItems : List Item :=
  [.fn (some cstr) [c!"rtcg", c!"outstr"] [(ty [c!"rtcg", c!"Outcome"], c!"o")] (some outstrBody),
   .fn (some ostream) [c!"operator<<"] [(ostream, c!"stm"), (ty [c!"rtcg", c!"Outcome"], c!"o")] (some (shows [c!"rtcg", c!"outstr"])),
   .fn (some cstr) [c!"rtcg", c!"status", c!"explain"] [(ty [c!"rtcg", c!"Status"], c!"s")] (some explainBody),
   .fn (some ostream) [c!"operator<<"] [(ostream, c!"stm"), (ty [c!"rtcg", c!"Status"], c!"o")]
     (some (shows [c!"rtcg", c!"status", c!"explain"])),
   .fn (some (ty [c!"bool"])) [c!"rtcg", c!"status", c!"isRunning"] [(ty [c!"rtcg", c!"Status"], c!"s")] (some isRunningBody),
   .fn (some (ty [c!"int"])) [c!"rtcg", c!"status", c!"exitCode"] [(ty [c!"rtcg", c!"Status"], c!"s")] (some exitCodeBody),
   .fn (some (ty [c!"rtcg", c!"Status"])) [c!"rtcg", c!"TestCase", c!"getStatus"] [] (some (stmtsOf [.retVal (nm c!"status_")]))]

theorem parse_rtcgCpp : parse (lex TemplateFiles.rtcgCpp) = some rtcgCppItems := by decide +kernel

end Tree

end Cpp

end Spec

end Rtcg
