import Verif.Model.Base

/-
The embedded files of /repo, character by character.  Written by tools/templates.py, which also checks that they are the same.
A file is the list of its lines, joined by newlines; a file that ends in a newline has an empty last line.
-/

namespace Rtcg

namespace TemplateFiles

/-- Lines joined by newlines -/
def unlines : List Str → Str
  | [] => []
  | [l] => l
  | l :: ls => l ++ '\n' :: unlines ls

/-- gen/cpp/embed/templates/base/base.cpp.tmpl:1-45 -/
def baseCppLines : List Str :=
  [ c!"//",
    c!"// Test {{ .Name }}",
    c!"//",
    c!"// Test autogenerated by rtcg on {{ .Date }}",
    c!"//",
    c!"",
    c!"{{ template \"includes.cpp.tmpl\" . }}",
    c!"",
    c!"//",
    c!"// CONSTANTS",
    c!"//",
    c!"{{ block \"constants\" . }}",
    c!"{{- end }}",
    c!"",
    c!"",
    c!"//",
    c!"// TEST VERDICTS",
    c!"//",
    c!"// In non-factorised tests, there will usually only be one test verdict;",
    c!"// factorised tests may have multiple.",
    c!"//",
    c!"{{ template \"verdict.cpp.tmpl\" .Stm.Tests.Values }}",
    c!"",
    c!"",
    c!"//",
    c!"// STATES",
    c!"//",
    c!"// Every step in the test has a corresponding state in the test state machine.",
    c!"// For non-factorised tests, these relate directly to points on the trace.",
    c!"//",
    c!"{{ template \"state_meta.cpp.tmpl\" .Stm.States }}",
    c!"",
    c!"",
    c!"//",
    c!"// MAIN TEST CLASS",
    c!"//",
    c!"// Most of the working parts of the test are here.",
    c!"//",
    c!"{{ template \"stm.cpp.tmpl\" . }}",
    c!"",
    c!"",
    c!"//",
    c!"// ENTRY POINT",
    c!"//",
    c!"{{ template \"entry.cpp.tmpl\" . }}",
    c!"" ]

/-- gen/cpp/embed/templates/base/base.cpp.tmpl, the whole file -/
def baseCpp : Str := unlines baseCppLines

/-- gen/cpp/embed/templates/base/entry.cpp.tmpl:1-22 -/
def entryCppLines : List Str :=
  [ c!"{{/* The main entry point of the test. */}}",
    c!"int main({{ block \"main_args\" . }}int argc, char** argv{{ end }})",
    c!"{",
    c!"  // Initialisation",
    c!"{{- block \"pre_init\" . }}{{ end }}",
    c!"",
    c!"  StateMachine stm { {{- block \"stm_ctor_args\" . -}}{{- end -}} };",
    c!"",
    c!"{{- block \"init\" . }}{{ end }}",
    c!"",
    c!"  // Test loop",
    c!"  {{ template \"log\" \"info\" }}\"Test {{ .Name }} in main loop.\"{{ template \"end_log\" }}",
    c!"{{ template \"main_body.cpp.tmpl\" . }}",
    c!"",
    c!"  auto status = stm.getStatus();",
    c!"  {{ template \"log\" \"info\" }}\"Test {{ .Name }} finished: \" << status << \".\"{{ template \"end_log\" }}",
    c!"  stm.getVerdict().dump();",
    c!"",
    c!"{{- block \"cleanup\" . }}{{ end }}",
    c!"",
    c!"  return rtcg::status::exitCode(status);",
    c!"}" ]

/-- gen/cpp/embed/templates/base/entry.cpp.tmpl, the whole file -/
def entryCpp : Str := unlines entryCppLines

/-- gen/cpp/embed/templates/base/in_callback.cpp.tmpl:1-20 -/
def inCallbackCppLines : List Str :=
  [ c!"{{/*",
    c!"in_callback.cpp.tmpl expands into the body of the input acknowledgement callback.",
    c!"",
    c!"It expects a state/transition map.",
    c!"",
    c!"Base indent is set at 2, as we are inside a top-level function.",
    c!"*/}}",
    c!"  switch (state_)",
    c!"  {",
    c!"{{- range $s, $ts := . }}",
    c!"  case {{ cppStateEnum $s }}:",
    c!"    {{ template \"log\" \"info\" }}\"Accepted input on state {{ $s }} as expected.\"{{ template \"end_log\" }}",
    c!"    {{ cppStateEntry (index $ts 0).Next }}();",
    c!"    break;",
    c!"{{- end }}",
    c!"  default:",
    c!"    // We shouldn't be seeing an input acknowledgement in this state.",
    c!"    {{ template \"log\" \"error\" }}\"Accepted input in unexpected state\" << stateName(){{ template \"end_log\" }}",
    c!"    end(rtcg::Status::BUG);",
    c!"  }",
    c!"" ]

/-- gen/cpp/embed/templates/base/in_callback.cpp.tmpl, the whole file -/
def inCallbackCpp : Str := unlines inCallbackCppLines

/-- gen/cpp/embed/templates/base/includes.cpp.tmpl:1-19 -/
def includesCppLines : List Str :=
  [ c!"{{- /*",
    c!"includes.cpp.tmpl expands to the list of includes at the top of the C++ test file.",
    c!"",
    c!"Dot is set to the context.",
    c!"Indent is at 0.",
    c!"*/ -}}",
    c!"#include <string>",
    c!"",
    c!"{{- /* Allow variants to add more system includes (such as ROS) here: */ -}}",
    c!"{{- block \"system_includes\" . }}",
    c!"{{- end -}}",
    c!"",
    c!"{{- /* Allow the config file to add even more includes here: */ -}}",
    c!"{{- range .Includes }}",
    c!"#include {{ if .IsSystem -}} < {{- else -}} \" {{- end -}} {{ .Src }} {{- if .IsSystem -}} > {{- else -}} \" {{- end }}",
    c!"{{- end }}",
    c!"",
    c!"#include \"rtcg.h\"    // Helper definitions (compile with ../rtcg/rtcg.cpp)",
    c!"#include \"convert.h\" // Channel type definitions and conversion functions",
    c!"" ]

/-- gen/cpp/embed/templates/base/includes.cpp.tmpl, the whole file -/
def includesCpp : Str := unlines includesCppLines

/-- gen/cpp/embed/templates/base/out_callback.cpp.tmpl:1-35 -/
def outCallbackCppLines : List Str :=
  [ c!"{{/*",
    c!"out_callback.cpp.tmpl expands into the body of a state function.",
    c!"",
    c!"It expects the output aggregate transition set as its dot.",
    c!"",
    c!"Base indent is set at 2, as we are inside a top-level function.",
    c!"*/}}",
    c!"  auto value = {{ cppConvertFrom $.Channel.Name }}(msg);",
    c!"",
    c!"  switch (state_)",
    c!"  {",
    c!"{{- range $s, $ts := .States }}",
    c!"  case {{ cppStateEnum $s }}:",
    c!"{{-   range $i, $t := $ts }}",
    c!"    {{ if ne $i 0 }}else {{ end }}if (",
    c!"{{-     $ty := $t.Value.Type -}}",
    c!"{{-     if $ty.IsEnum -}}",
    c!"    value.compare(\"{{ $t.Value.StringValue }}\") == 0",
    c!"{{-     else -}}",
    c!"    value == {{ $t.Value.StringValue }}",
    c!"{{-     end -}}",
    c!")",
    c!"      {{ cppStateEntry $t.Next }}();",
    c!"{{-   end }}",
    c!"    else",
    c!"    {",
    c!"      {{ template \"log\" \"info\" }}\"Unexpected value \" << value << \" for {{ $.Channel }} in state {{ $s }}.\"{{ template \"end_log\" }}",
    c!"      end(rtcg::Status::OFF_SCRIPT);",
    c!"    }",
    c!"    break;",
    c!"{{- end }}",
    c!"  default:",
    c!"    {{ template \"log\" \"info\" }}\"Output \" << value << \" on {{ $.Channel }} in unexpected state \" << stateName() << \".\"{{ template \"end_log\" }}",
    c!"    end(rtcg::Status::OFF_SCRIPT);",
    c!"  }",
    c!"" ]

/-- gen/cpp/embed/templates/base/out_callback.cpp.tmpl, the whole file -/
def outCallbackCpp : Str := unlines outCallbackCppLines

/-- gen/cpp/embed/templates/base/state_entry.cpp.tmpl:1-42 -/
def stateEntryCppLines : List Str :=
  [ c!"{{/*",
    c!"state_entry.cpp.tmpl expands into the body of a state entry function.",
    c!"",
    c!"It expects the state in question as its dot.",
    c!"",
    c!"Base indent is set at 2, as we are inside a top-level function.",
    c!"*/}}",
    c!"  {{ template \"log\" \"info\" }}\"Entered state {{ .ID }}.\"{{ template \"end_log\" }}",
    c!"",
    c!"{{- range $t, $o := .Verdict }}",
    c!"  verdict_.{{ $t }}({{ cppOutcomeEnum $o }});",
    c!"{{- end }}",
    c!"",
    c!"{{- /* Assuming that this is a valid state, ie at most one input, and no mix of inputs/outputs. */ -}}",
    c!"{{- if .Verdict.IsFail }}",
    c!"",
    c!"  end(rtcg::Status::FAIL); // This state fails at least one test",
    c!"{{- else if .HasIn }}",
    c!"",
    c!"  // This state provides an input to the SUT",
    c!"  status_ = rtcg::Status::WAIT_IN;",
    c!"",
    c!"{{-   with .In }}",
    c!"",
    c!"  {{ template \"log\" \"info\" }}\"State '{{ $.ID }}' sends {{ .Value.StringValue }} to SUT on {{ .Channel.Name }}; \" <<",
    c!"    \"if accepted, next state will be '{{ .Next }}'.\"{{ template \"end_log\" }}",
    c!"{{      template \"input\" . -}}",
    c!"{{-   end }}",
    c!"{{- else }}",
    c!"",
    c!"  // This state expects an output from the SUT",
    c!"  status_ = rtcg::Status::WAIT_OUT;",
    c!"",
    c!"{{- /* The actual handling of these is done in the callbacks. */ -}}",
    c!"{{-  range $outSet := .TransitionSets }}",
    c!"{{-    range index .Transitions }}",
    c!"",
    c!"  {{ template \"log\" \"info\" }}\"State '{{ $.ID }}' can receive {{ .Value.StringValue }} from SUT on {{ $outSet.Channel.Name }}; \" <<",
    c!"    \"if received, next state will be '{{ .Next }}'.\"{{ template \"end_log\" }}",
    c!"{{-    end }}",
    c!"{{-  end }}",
    c!"{{- end -}}",
    c!"" ]

/-- gen/cpp/embed/templates/base/state_entry.cpp.tmpl, the whole file -/
def stateEntryCpp : Str := unlines stateEntryCppLines

/-- gen/cpp/embed/templates/base/state_meta.cpp.tmpl:1-27 -/
def stateMetaCppLines : List Str :=
  [ c!"{{/*",
    c!"state_meta.cpp.tmpl expands into various bits of state metadata.",
    c!"",
    c!"It expects a slice of state ID strings as its dot.",
    c!"*/}}",
    c!"// A numerical identifier for each state in the testing state machine.",
    c!"enum class State",
    c!"{",
    c!"{{- range $i, $v := . }}",
    c!"  {{ cppEnumField $v.ID }},",
    c!"{{- end }}",
    c!"};",
    c!"",
    c!"namespace state",
    c!"{",
    c!"  // Gets the name of a state.",
    c!"  const char* name(State s)",
    c!"  {",
    c!"    switch (s) {",
    c!"  {{- range . }}",
    c!"    case {{ cppStateEnum .ID }}:",
    c!"      return \"{{ .ID }}\";",
    c!"  {{- end }}",
    c!"    }",
    c!"    return \"???\";",
    c!"  }",
    c!"}" ]

/-- gen/cpp/embed/templates/base/state_meta.cpp.tmpl, the whole file -/
def stateMetaCpp : Str := unlines stateMetaCppLines

/-- gen/cpp/embed/templates/base/stm.cpp.tmpl:1-148 -/
def stmCppLines : List Str :=
  [ c!"{{/*",
    c!"stm.cpp.tmpl expands into the state machine for the tester.",
    c!"",
    c!"It expects the test context as its dot.",
    c!"*/}}",
    c!"// The main testing state machine, containing all state used in the test.",
    c!"class StateMachine : public rtcg::TestCase",
    c!"{",
    c!"public:",
    c!"  StateMachine({{ block \"stm_ctor_params\" . }}{{ end }});",
    c!"  Verdict& getVerdict(); // Gets the current verdict.",
    c!"",
    c!"  //",
    c!"  // Callbacks",
    c!"  //",
    c!"",
    c!"  void timeoutCallback({{ template \"timeout_callback_args\" }});  // Called when the test has run out of time.",
    c!"",
    c!"{{- if .Transitions.FirstStateHasIn }}",
    c!"  void initialDelayCallback({{ template \"initial_delay_callback_args\" }});  // Called after the initial delay timer.",
    c!"{{- end }}",
    c!"",
    c!"{{- if .Transitions.HasIn }}",
    c!"  void inputAcceptedCallback({{ template \"in_callback_args\" }});  // Called when the SUT accepts an input.",
    c!"{{- end }}",
    c!"",
    c!"  // Output callbacks:",
    c!"{{- range .Transitions.Out }}",
    c!"  void {{ cppCallbackName .Channel.Name }}(const {{ cppChannelMsgType .Channel.Name }} msg);",
    c!"{{- end }}",
    c!"private:",
    c!"  Verdict verdict_;",
    c!"  State state_ = {{ (index .Stm.States 0).ID | cppStateEnum }};",
    c!"{{- block \"stm_fields\" . -}}{{- end }}",
    c!"",
    c!"  // State entry functions",
    c!"{{- range .Stm.States }}",
    c!"  void {{ cppStateEntry .ID }}();",
    c!"{{- end }}",
    c!"",
    c!"  const char* stateName();       // Gets the name of the current state.",
    c!"  void end(rtcg::Status status); // Ends the test with the given status.",
    c!"};",
    c!"",
    c!"StateMachine::StateMachine({{ template \"stm_ctor_params\" . }})",
    c!"{",
    c!"{{- if .Transitions.FirstStateHasIn }}",
    c!"  // This test's first state has an input, so we delay entry into the initial",
    c!"  // state to initialDelayCallback.",
    c!"  status_ = rtcg::Status::WAIT_START;",
    c!"{{- else }}",
    c!"  {{ cppStateEntry .Stm.InitialState }}();",
    c!"{{- end -}}",
    c!"{{- block \"stm_ctor\" . }}{{ end }}",
    c!"}",
    c!"",
    c!"Verdict& StateMachine::getVerdict()",
    c!"{",
    c!"  return verdict_;",
    c!"}",
    c!"",
    c!"const char* StateMachine::stateName()",
    c!"{",
    c!"  return state::name(state_);",
    c!"}",
    c!"",
    c!"void StateMachine::end(rtcg::Status s)",
    c!"{",
    c!"  if (!rtcg::status::isRunning(status_))",
    c!"  {",
    c!"    {{ template \"log\" \"error\" }}\"Tried to end test twice (first as \" << status_ << \", then as \" << s << \".\"{{ template \"end_log\" }}",
    c!"    return;",
    c!"  }",
    c!"",
    c!"  if (rtcg::status::isRunning(s))",
    c!"  {",
    c!"    {{ template \"log\" \"error\" }}\"Tried to end with a non-ending status \" << s << \".\"{{ template \"end_log\" }}",
    c!"    s = rtcg::Status::BUG;",
    c!"  }",
    c!"",
    c!"  status_ = s;",
    c!"{{- /* Depending on the way we're running the tests, we may need extra code here to abort the test: */ -}}",
    c!"{{- block \"stm_end\" . -}}{{- end }}",
    c!"}",
    c!"",
    c!"",
    c!"//",
    c!"// Callback functions",
    c!"//",
    c!"",
    c!"void StateMachine::timeoutCallback({{ template \"timeout_callback_args\" }})",
    c!"{",
    c!"  // Don't acknowledge this callback if we've already timed out.",
    c!"  if (!rtcg::status::isRunning(status_))",
    c!"    return;",
    c!"",
    c!"  {{ template \"log\" \"info\" }}\"Timeout!\"{{ template \"end_log\" }}",
    c!"  end(rtcg::Status::TIMEOUT);",
    c!"}",
    c!"",
    c!"{{- if .Transitions.FirstStateHasIn }}",
    c!"",
    c!"void StateMachine::initialDelayCallback({{ template \"initial_delay_callback_args\" }})",
    c!"{",
    c!"  // Only acknowledge this callback if we're actually waiting to start.",
    c!"  if (status_ != rtcg::Status::WAIT_START)",
    c!"    return;",
    c!"",
    c!"  {{ template \"log\" \"info\" }}\"Initial delay finished, now entering first state.\"{{ template \"end_log\" }}",
    c!"  {{ cppStateEntry .Stm.InitialState }}();",
    c!"}",
    c!"{{- end }}",
    c!"",
    c!"{{- if .Transitions.HasIn }}",
    c!"",
    c!"void StateMachine::inputAcceptedCallback({{ template \"in_callback_args\" }})",
    c!"{",
    c!"{{-   block \"in_callback\" .Transitions.InMerged }}",
    c!"{{-     template \"in_callback.cpp.tmpl\" . }}",
    c!"{{-   end -}}",
    c!"}",
    c!"{{- end }}",
    c!"",
    c!"{{- range .Transitions.Out }}",
    c!"",
    c!"void StateMachine::{{ cppCallbackName .Channel.Name }}(const {{ cppChannelMsgType .Channel.Name }} msg)",
    c!"{",
    c!"{{- block \"out_callback\" . }}",
    c!"{{-   template \"out_callback.cpp.tmpl\" . }}",
    c!"{{- end -}}",
    c!"}",
    c!"{{- end }}",
    c!"",
    c!"",
    c!"//",
    c!"// State machine entry functions",
    c!"//",
    c!"",
    c!"{{- range .Stm.States }}",
    c!"",
    c!"void StateMachine::{{ cppStateEntry .ID }}()",
    c!"{",
    c!"  state_ = {{ cppStateEnum .ID }};",
    c!"{{ block \"state\" . }}",
    c!"{{- template \"state_entry.cpp.tmpl\" . -}}",
    c!"{{- end }}",
    c!"}",
    c!"{{- end }}" ]

/-- gen/cpp/embed/templates/base/stm.cpp.tmpl, the whole file -/
def stmCpp : Str := unlines stmCppLines

/-- gen/cpp/embed/templates/base/verdict.cpp.tmpl:1-40 -/
def verdictCppLines : List Str :=
  [ c!"{{/*",
    c!"verdict.cpp.tmpl expands into the verdict storage class.",
    c!"",
    c!"It expects a slice of test ID strings as its dot.",
    c!"*/}}",
    c!"// Records information about test verdicts.",
    c!"class Verdict",
    c!"{",
    c!"public:",
    c!"  void dump(); // Outputs all test verdicts to log.",
    c!"{{- range . }}",
    c!"  void {{ . }}(rtcg::Outcome new_val); // Sets the outcome of {{ . }}.",
    c!"{{- end }}",
    c!"private:",
    c!"{{- range . }}",
    c!"  rtcg::Outcome {{ . }}_ = rtcg::Outcome::UNSET;",
    c!"{{- end }}",
    c!"};",
    c!"",
    c!"void Verdict::dump()",
    c!"{",
    c!"{{- block \"verdict_dump\" . }}",
    c!"  {{ template \"log\" \"info\" }}\"Final outcomes: \"{{ template \"end_log\" }}",
    c!"{{-   range . }}",
    c!"  {{ template \"log\" \"info\" }}\"  {{ . }} = \" << {{ . }}_{{ template \"end_log\" }}",
    c!"{{-   end }}",
    c!"{{- end }}",
    c!"}",
    c!"",
    c!"{{- range . }}",
    c!"",
    c!"void Verdict::{{ . }}(rtcg::Outcome new_val)",
    c!"{",
    c!"  if ({{ . }}_ == new_val)",
    c!"    return;",
    c!"",
    c!"  {{ template \"log\" \"info\" }}\"Test {{ . }} is now \" << new_val << \"; was \" << {{ . }}_ << \".\"{{ template \"end_log\" }}",
    c!"  {{ . }}_ = new_val;",
    c!"}",
    c!"{{- end -}}",
    c!"" ]

/-- gen/cpp/embed/templates/base/verdict.cpp.tmpl, the whole file -/
def verdictCpp : Str := unlines verdictCppLines

/-- gen/cpp/embed/templates/base/convert/convert_base.h.tmpl:1-77 -/
def convertBaseHLines : List Str :=
  [ c!"{{- /*",
    c!"convert.base.h.tmpl expands to the base header for channel types and overrides.",
    c!"",
    c!"It expects the full context as dot.",
    c!"",
    c!"Base indent is set at 0.",
    c!"*/ -}}",
    c!"//",
    c!"// Conversion functions",
    c!"//",
    c!"",
    c!"#ifndef CONVERT_H_DEFINED",
    c!"#define CONVERT_H_DEFINED",
    c!"{{/* Bring any user-defined includes into scope, as they'll likely define override types: */ -}}",
    c!"{{- range .Includes }}",
    c!"#include {{ if .IsSystem -}} < {{- else -}} \" {{- end -}} {{ .Src }} {{- if .IsSystem -}} > {{- else -}} \" {{- end }}",
    c!"{{- end }}",
    c!"",
    c!"",
    c!"// Value type definitions",
    c!"//",
    c!"// These are used in the test driver wherever we need a plain value of the type",
    c!"// expected by the SUT.",
    c!"//",
    c!"// We use #define instead of typedef/using to avoid problems if there are",
    c!"// hidden type parameters (for instance, the allocators in ROS strings).",
    c!"{{ range $ch, $ty := .ChannelTypes }}",
    c!"#define {{ cppChannelValueType $ch }} {{ if .HasOverride }}{{ .Override }}{{ else }}{{ template \"type\" .Base }}{{ end }}",
    c!"{{- end }}",
    c!"",
    c!"",
    c!"// Message type definitions",
    c!"//",
    c!"// These are used in output callbacks, and refer to the type of messages being",
    c!"// sent from the SUT.  These can differ from the value types; for instance, in",
    c!"// ROS, they are pointers to values rather than copies.",
    c!"{{ range $ch, $ty := .ChannelTypes }}",
    c!"#define {{ cppChannelMsgType $ch }} {{ template \"msg_type\" $ch }}",
    c!"{{- end }}",
    c!"",
    c!"//",
    c!"// Conversion functions",
    c!"//",
    c!"// We use these to convert from basic C++ types (int, std::string, etc) to",
    c!"// and from the types mentioned above.",
    c!"//",
    c!"// Wherever a function has 'User override supplied' next to it, there must be a",
    c!"// definition of that function somewhere in the compilation unit.",
    c!"//",
    c!"",
    c!"// Converting from channel message types to basic types",
    c!"{{- range $ch, $ty := .ChannelTypes }}",
    c!"",
    c!"{{ cppType .Base }} {{ cppConvertFrom $ch }}(const {{ cppChannelMsgType $ch }} msg)",
    c!"{{-   if .HasOverride -}}",
    c!"; // User override supplied",
    c!"{{-   else }}",
    c!"{",
    c!"{{- template \"convert_from\" .Base }}",
    c!"}",
    c!"{{-   end -}}",
    c!"{{- end }}",
    c!"",
    c!"// Converting from basic types to channel value types",
    c!"{{- range $ch, $ty := .ChannelTypes }}",
    c!"",
    c!"{{ cppChannelValueType $ch }} {{ cppConvertTo $ch }}(const {{ cppType .Base }} value)",
    c!"{{-   if .HasOverride -}}",
    c!"; // User override supplied",
    c!"{{-   else }}",
    c!"{",
    c!"{{- template \"convert_to\" .Base }}",
    c!"}",
    c!"{{-   end -}}",
    c!"{{- end }}",
    c!"",
    c!"#endif // CONVERT_H_DEFINED",
    c!"" ]

/-- gen/cpp/embed/templates/base/convert/convert_base.h.tmpl, the whole file -/
def convertBaseH : Str := unlines convertBaseHLines

/-- gen/cpp/embed/templates/animate/main.cpp.tmpl:1-46 -/
def animateMainCppLines : List Str :=
  [ c!"{{- define \"system_includes\" }}",
    c!"#include <iostream>",
    c!"{{- end -}}",
    c!"",
    c!"{{- define \"constants\" }}",
    c!"// no constants defined",
    c!"{{- end -}}",
    c!"",
    c!"{{- define \"log\" -}}std::cerr << \"[{{ . }}] \" << {{ end -}}",
    c!"{{- define \"end_log\" }} << std::endl;{{- end -}}",
    c!"",
    c!"{{- /* Placeholder for when an input is required. */ -}}",
    c!"{{- define \"input\" }}",
    c!"  {{ template \"log\" \"info\" }}\"(Actual value received by SUT on {{ .Channel.Name }} after conversion: \" << {{ cppConvertTo .Channel.Name }}({{ cppValue .Value }}) << \")\"{{ template \"end_log\" }}",
    c!"{{- end }}",
    c!"",
    c!"{{- /* Returns the argument set of a timeout callback. */ -}}",
    c!"{{- define \"timeout_callback_args\" -}}",
    c!"  {{/* See https://stackoverflow.com/questions/46174445 */}}{{ \"\" }}",
    c!"{{- end -}}",
    c!"",
    c!"{{- /* Returns the argument set of an initial-delay callback. */ -}}",
    c!"{{- define \"initial_delay_callback_args\" -}}",
    c!"  {{/* See https://stackoverflow.com/questions/46174445 */}}{{ \"\" }}",
    c!"{{- end -}}",
    c!"",
    c!"{{- /* Returns the argument set of an input-accepted callback. */ -}}",
    c!"{{- define \"in_callback_args\" -}}",
    c!"  {{/* See https://stackoverflow.com/questions/46174445 */}}{{ \"\" }}",
    c!"{{- end -}}",
    c!"",
    c!"{{/*",
    c!"Placed in the test driver as the body of the 'while' loop that is waiting",
    c!"for results to come in from callbacks.",
    c!"",
    c!"Should have an indent of 2, and has the state machine as dot.",
    c!"*/}}",
    c!"{{- define \"main_body\" }}",
    c!"",
    c!"{{- end -}}",
    c!"",
    c!"{{- define \"main_args\" -}}",
    c!"  {{/* See https://stackoverflow.com/questions/46174445 */}}{{ \"\" }}",
    c!"{{- end -}}",
    c!"",
    c!"{{- template \"base.cpp.tmpl\" . -}}" ]

/-- gen/cpp/embed/templates/animate/main.cpp.tmpl, the whole file -/
def animateMainCpp : Str := unlines animateMainCppLines

/-- gen/cpp/embed/templates/animate/main_body.cpp.tmpl:1-54 -/
def animateMainBodyCppLines : List Str :=
  [ c!"{{- if .Transitions.FirstStateHasIn }}",
    c!"  std::cout << \"[!] Test is waiting for the SUT to initialise before sending an input.\\n\";",
    c!"{{- end }}",
    c!"",
    c!"  for (auto s = stm.getStatus(); rtcg::status::isRunning(s); s = stm.getStatus())",
    c!"  {",
    c!"    std::cout << \"\\nType one of the following:\\n\";",
    c!"{{- if .Transitions.HasIn }}",
    c!"{{-   if .Transitions.FirstStateHasIn }}",
    c!"    if (s == rtcg::Status::WAIT_START)",
    c!"      std::cout << \"  ready (prepares SUT for inputs)\\n\";",
    c!"    else if",
    c!"{{-   else }}",
    c!"    if",
    c!"{{ end }} (s == rtcg::Status::WAIT_IN)",
    c!"      std::cout << \"  accept (accepts an input)\\n\";",
    c!"{{- end }}",
    c!"    std::cout << \"  timeout (quits the test with a timeout)\\n\";",
    c!"",
    c!"    std::cout << \"\\nOr, to enter an output, type its name and the desired value: \\n\";",
    c!"{{- range .Transitions.Out }}",
    c!"    std::cout << \"  {{ .Channel.Name }} (type: {{ (index $.ChannelTypes .Channel.Name).Base }})\\n\";",
    c!"{{- else }}",
    c!"    std::cout << \"  No outputs available for this test-case.\\n\";",
    c!"{{- end }}",
    c!"",
    c!"    std::cout << \"\\n> \";",
    c!"    std::string choice;",
    c!"    std::cin >> choice;",
    c!"",
    c!"    if (choice == \"timeout\")",
    c!"      stm.timeoutCallback();",
    c!"{{- if .Transitions.FirstStateHasIn }}",
    c!"    else if (choice == \"ready\" && s == rtcg::Status::WAIT_START)",
    c!"    stm.initialDelayCallback();",
    c!"{{- end }}",
    c!"{{- if .Transitions.HasIn }}",
    c!"    else if (choice == \"accept\" && s == rtcg::Status::WAIT_IN)",
    c!"      stm.inputAcceptedCallback();",
    c!"{{- end }}",
    c!"{{- range .Transitions.Out -}}",
    c!"{{-   $cn := .Channel.Name }}",
    c!"{{-   $ctype := index $.ChannelTypes $cn }}",
    c!"    else if (choice == \"{{ $cn }}\")",
    c!"    {",
    c!"      {{ cppType $ctype.Base }} in;",
    c!"      std::cin >> in;",
    c!"",
    c!"      stm.{{ cppCallbackName .Channel.Name }}({{ cppConvertTo .Channel.Name }}(in));",
    c!"    }",
    c!"{{- end }}",
    c!"    else",
    c!"      std::cout << \"Sorry, try again.\\n\";",
    c!"  }" ]

/-- gen/cpp/embed/templates/animate/main_body.cpp.tmpl, the whole file -/
def animateMainBodyCpp : Str := unlines animateMainBodyCppLines

/-- gen/cpp/embed/templates/animate/convert/convert.h.tmpl:1-27 -/
def animateConvertHLines : List Str :=
  [ c!"{{- /* convert.h.tmpl is the animate-specific template for convert.h. */ -}}",
    c!"",
    c!"{{- /* Performs conversion from a channel type to a value type.",
    c!"",
    c!"Receives the value type as dot.",
    c!"",
    c!"Indent is set at 2 spaces, as this is the body of a root function. */ -}}",
    c!"{{- define \"convert_from\" }}",
    c!"  return msg;  // No conversion required for animate",
    c!"{{- end -}}",
    c!"",
    c!"{{- /* Performs conversion from a value type to a channel type.",
    c!"",
    c!"Receives the value type as dot.",
    c!"",
    c!"Indent is set at 2 spaces, as this is the body of a root function. */ -}}",
    c!"{{- define \"convert_to\" }}",
    c!"    return value;  // No conversion required for animate",
    c!"{{- end -}}",
    c!"",
    c!"{{- /* Calculates the C++ equivalent of a RoboStar type. */ -}}",
    c!"{{- define \"type\" -}}{{ cppType . }}{{- end -}}",
    c!"",
    c!"{{- /* Calculates the message type of a channel. */ -}}",
    c!"{{- define \"msg_type\" -}}{{ cppChannelValueType . }}{{- end -}}",
    c!"",
    c!"{{- template \"convert_base.h.tmpl\" . -}}" ]

/-- gen/cpp/embed/templates/animate/convert/convert.h.tmpl, the whole file -/
def animateConvertH : Str := unlines animateConvertHLines

/-- gen/cpp/embed/templates/ros/main.cpp.tmpl:1-129 -/
def rosMainCppLines : List Str :=
  [ c!"{{- /*",
    c!"The top-level ROS1 template.",
    c!"",
    c!"This overrides and implements various parts of the base C++ template to use",
    c!"ROS primitives and concepts, then delegates to that template.",
    c!"*/ -}}",
    c!"",
    c!"{{- define \"system_includes\" }}",
    c!"#include \"ros/ros.h\"",
    c!"#include \"std_msgs/Bool.h\"",
    c!"#include \"std_msgs/String.h\"",
    c!"{{- end -}}",
    c!"",
    c!"{{- define \"constants\" }}",
    c!"const int TIMEOUT_SEC     = 15;",
    c!"const int INPUT_DELAY_SEC = 3;",
    c!"{{- end -}}",
    c!"",
    c!"{{- /* Starts and ends a stream-style log statement. */ -}}",
    c!"{{- define \"log\" -}}ROS_{{ toUpper . }}_STREAM({{- end -}}",
    c!"{{- define \"end_log\" }} << std::endl);{{- end -}}",
    c!"",
    c!"{{- define \"topic_name\" -}}{{ toLowerUnderscored .Channel.Name }}{{- end -}}",
    c!"{{- define \"publisher_name\" -}}{{ template \"topic_name\" . }}_pub{{- end -}}",
    c!"{{- define \"subscriber_name\" -}}{{ template \"topic_name\" . }}_sub{{- end -}}",
    c!"",
    c!"{{- /* Placeholder for when an input is required. */ -}}",
    c!"{{- define \"input\" }}",
    c!"  {{ template \"publisher_name\" . }}_.publish({{ cppConvertTo .Channel.Name }}({{ cppValue .Value }}));",
    c!"{{- end }}",
    c!"",
    c!"{{- /* Returns the argument set of the timeout callback. */ -}}",
    c!"{{- define \"timeout_callback_args\" -}}",
    c!"  const ros::TimerEvent& event",
    c!"{{- end -}}",
    c!"",
    c!"{{- /* Returns the argument set of the initial delay callback. */ -}}",
    c!"{{- define \"initial_delay_callback_args\" -}}",
    c!"  const ros::TimerEvent& event",
    c!"{{- end -}}",
    c!"",
    c!"{{- /* Returns the argument set of an input-accepted callback. */ -}}",
    c!"{{- define \"in_callback_args\" -}}",
    c!"  const std_msgs::Bool::ConstPtr& msg",
    c!"{{- end -}}",
    c!"",
    c!"{{/* ROS initialisation code. */}}",
    c!"{{- define \"pre_init\" }}",
    c!"  ros::init(argc, argv, \"{{ .Name }}\");",
    c!"  ros::NodeHandle nh;",
    c!"",
    c!"  // Publishers",
    c!"{{-   range .Transitions.In }}",
    c!"  auto {{ template \"publisher_name\" . }} = nh.advertise<{{ cppChannelValueType .Channel.Name }}>(\"{{ template \"topic_name\" . }}\", 1000);",
    c!"{{-   end }}",
    c!"{{- end }}",
    c!"",
    c!"{{- define \"init\" }}",
    c!"  // Subscribers",
    c!"{{-   if .Transitions.HasIn }}",
    c!"  auto input_accepted_sub = nh.subscribe(\"input_accepted\", 10, &StateMachine::inputAcceptedCallback, &stm);",
    c!"{{-   end }}",
    c!"{{   range .Transitions.Out }}",
    c!"  auto {{ template \"subscriber_name\" . }} = nh.subscribe(\"{{ template \"topic_name\" . }}\", 10, &StateMachine::{{ cppCallbackName .Channel.Name }}, &stm);",
    c!"{{-   end }}",
    c!"",
    c!"  // Timers",
    c!"  auto timeout_timer = nh.createTimer(ros::Duration(TIMEOUT_SEC), &StateMachine::timeoutCallback, &stm);",
    c!"",
    c!"{{- /* If the first state has an input transition, we delay the test to allow the SUT to warm up: */ -}}",
    c!"{{-   if .Transitions.FirstStateHasIn }}",
    c!"  auto initial_delay_timer = nh.createTimer(ros::Duration(INPUT_DELAY_SEC), &StateMachine::initialDelayCallback, &stm);",
    c!"{{-   end }}",
    c!"{{- end -}}",
    c!"",
    c!"{{-",
    c!"/*",
    c!" * State machine",
    c!" */",
    c!"-}}",
    c!"",
    c!"{{- /* Adding the ROS handles to the state machine fields: */ -}}",
    c!"{{- define \"stm_fields\" }}",
    c!"",
    c!"  // Publisher handles",
    c!"{{-   range .Transitions.In }}",
    c!"  ros::Publisher {{ template \"publisher_name\" . }}_;",
    c!"{{-   end }}",
    c!"{{- end -}}",
    c!"",
    c!"{{- /* Adding them to the constructor also: */ -}}",
    c!"{{- define \"stm_ctor_params\" -}}",
    c!"{{-   range $i, $t := .Transitions.In -}}",
    c!"{{-     if ne $i 0 -}}, {{ end -}}",
    c!"ros::Publisher {{ template \"publisher_name\" $t }}",
    c!"{{-   end -}}",
    c!"{{- end -}}",
    c!"",
    c!"{{- define \"stm_ctor_args\" -}}",
    c!"{{-   range $i, $t := .Transitions.In -}}",
    c!"{{-     if ne $i 0 -}}, {{ end -}}",
    c!"{{      template \"publisher_name\" $t }}",
    c!"{{-   end -}}",
    c!"{{- end -}}",
    c!"",
    c!"{{- define \"stm_ctor\" }}",
    c!"",
    c!"  // Install the publisher handles",
    c!"{{-   range .Transitions.In }}",
    c!"  {{ template \"publisher_name\" . }}_ = {{ template \"publisher_name\" . }};",
    c!"{{-   end -}}",
    c!"{{- end -}}",
    c!"",
    c!"{{- /* Making sure ending the test ends ROS: */ -}}",
    c!"{{- define \"stm_end\" }}",
    c!"  ros::shutdown();",
    c!"{{- end -}}",
    c!"",
    c!"{{/*",
    c!"The main loop or spin of the test driver, coming between initialisation and cleanup.",
    c!"",
    c!"Should have an indent of 2, and has the state machine as dot.",
    c!"*/}}",
    c!"{{- define \"main_body\" }}",
    c!"{{- end -}}",
    c!"",
    c!"{{/* We don't override \"main_args\" here. */}}",
    c!"",
    c!"{{- template \"base.cpp.tmpl\" . -}}" ]

/-- gen/cpp/embed/templates/ros/main.cpp.tmpl, the whole file -/
def rosMainCpp : Str := unlines rosMainCppLines

/-- gen/cpp/embed/templates/ros/main_body.cpp.tmpl:1-1 -/
def rosMainBodyCppLines : List Str :=
  [ c!"  ros::spin();",
    c!"" ]

/-- gen/cpp/embed/templates/ros/main_body.cpp.tmpl, the whole file -/
def rosMainBodyCpp : Str := unlines rosMainBodyCppLines

/-- gen/cpp/embed/templates/ros/convert/convert.h.tmpl:1-40 -/
def rosConvertHLines : List Str :=
  [ c!"{{- /* convert.h.tmpl is the ROS1-specific template for convert.h. */ -}}",
    c!"",
    c!"{{- /* Performs conversion from a channel type to a value type.",
    c!"",
    c!"Receives the value type as dot.",
    c!"",
    c!"Indent is set at 2 spaces, as this is the body of a root function. */ -}}",
    c!"{{- define \"convert_from\" -}}",
    c!"{{-   if .IsEnum }}",
    c!"  return std::string(msg->data.c_str());",
    c!"{{-   else }}",
    c!"  return msg->data;  // No conversion required",
    c!"{{-   end -}}",
    c!"{{- end -}}",
    c!"",
    c!"{{- /* Performs conversion from a value type to a channel type.",
    c!"",
    c!"Receives the value type as dot.",
    c!"",
    c!"Indent is set at 2 spaces, as this is the body of a root function. */ -}}",
    c!"{{- define \"convert_to\" -}}",
    c!"{{-   if .IsEnum }}",
    c!"  std_msgs::String msg;",
    c!"  msg.data = value.c_str();",
    c!"  return msg;",
    c!"{{-   else }}",
    c!"  return value;  // No conversion required",
    c!"{{-   end -}}",
    c!"{{- end -}}",
    c!"",
    c!"{{- /* Calculates the ROS equivalent of a RoboStar type. */ -}}",
    c!"{{- define \"type\" -}}",
    c!"{{- /* TODO: add more types here */ -}}",
    c!"  std_msgs::String",
    c!"{{- end -}}",
    c!"",
    c!"{{- /* Calculates the message type of a channel. */ -}}",
    c!"{{- define \"msg_type\" -}}{{ cppChannelValueType . }}::ConstPtr&{{- end -}}",
    c!"",
    c!"{{- template \"convert_base.h.tmpl\" . -}}" ]

/-- gen/cpp/embed/templates/ros/convert/convert.h.tmpl, the whole file -/
def rosConvertH : Str := unlines rosConvertHLines

/-- gen/makefile/embed/templates/Makefile.tmpl:1-19 -/
def makefileLines : List Str :=
  [ c!"{{- define \"output\" -}}bin/{{ . }}{{- end -}}",
    c!"{{- define \"reg_inputs\" -}}src/{{ . }}/src/main.cpp src/rtcg/rtcg.cpp{{- end -}}",
    c!"{{- define \"iconvert\" -}}{{- if .HasConversion }} -Isrc/convert{{- end -}}{{- end -}}",
    c!"{{- define \"convert\" -}}{{- if .HasConversion }} src/convert/convert.cpp{{- end -}}{{- end -}}",
    c!"",
    c!".POSIX:",
    c!"",
    c!"CXXFLAGS = {{ block \"cxxflags\" . }}-std=c++11 -Wall -Wextra{{ end }}",
    c!"",
    c!".PHONY: all mkdir",
    c!"",
    c!"all: mkdir {{- range $k, $v := .Tests }} {{ template \"output\" $k }}{{- end }}",
    c!"",
    c!"mkdir:",
    c!"\tmkdir -p bin",
    c!"{{ range $k, $v := .Tests }}",
    c!"{{ template \"output\" $k }}: {{ template \"reg_inputs\" $k }} {{- template \"convert\" $ }}",
    c!"\t$(CXX) $(CXXFLAGS) -o $@ -Isrc/{{ $k }}/include -Isrc/rtcg {{- template \"iconvert\" $ }} {{ template \"reg_inputs\" $k }} {{- template \"convert\" $ -}}",
    c!"{{- end }}",
    c!"" ]

/-- gen/makefile/embed/templates/Makefile.tmpl, the whole file -/
def makefile : Str := unlines makefileLines

/-- gen/catkin/embed/templates/CMakeLists.txt.tmpl:1-61 -/
def cmakeListsLines : List Str :=
  [ c!"{{- /*",
    c!"CMakeLists.txt.tmpl is the template for generating top-level CMakeLists for each package.",
    c!"",
    c!"It takes the package.xml as dot.",
    c!"*/ -}}",
    c!"cmake_minimum_required(VERSION 3.0.2)",
    c!"project({{ .Name }})",
    c!"",
    c!"add_compile_options(-std=c++11)",
    c!"",
    c!"find_package(catkin REQUIRED COMPONENTS",
    c!"    roscpp",
    c!"    std_msgs",
    c!"{{- range .Depends }}",
    c!"    {{ . }}",
    c!"{{- end }}",
    c!")",
    c!"",
    c!"catkin_package(CATKIN_DEPENDS",
    c!"    roscpp",
    c!"    std_msgs",
    c!"{{- range .Depends }}",
    c!"    {{ . }}",
    c!"{{- end }}",
    c!")",
    c!"",
    c!"include_directories(",
    c!"    include",
    c!"    ${catkin_INCLUDE_DIRS}",
    c!"    ../convert/",
    c!"    ../rtcg/",
    c!")",
    c!"",
    c!"add_library(convert",
    c!"    ../convert/convert.cpp",
    c!")",
    c!"",
    c!"add_library(rtcg",
    c!"    ../rtcg/rtcg.cpp",
    c!")",
    c!"",
    c!"add_executable(${PROJECT_NAME}_node",
    c!"    src/main.cpp",
    c!"    ../convert/convert.cpp",
    c!"    ../rtcg/rtcg.cpp",
    c!")",
    c!"",
    c!"set_target_properties(${PROJECT_NAME}_node PROPERTIES OUTPUT_NAME node PREFIX \"\")",
    c!"",
    c!"add_dependencies(${PROJECT_NAME}_node",
    c!"    ${${PROJECT_NAME}_EXPORTED_TARGETS}",
    c!"    ${catkin_EXPORTED_TARGETS}",
    c!"    convert",
    c!"    rtcg",
    c!")",
    c!"",
    c!"target_link_libraries(${PROJECT_NAME}_node",
    c!"    ${catkin_LIBRARIES}",
    c!"    convert",
    c!"    rtcg",
    c!")" ]

/-- gen/catkin/embed/templates/CMakeLists.txt.tmpl, the whole file -/
def cmakeLists : Str := unlines cmakeListsLines

/-- gen/cpp/embed/prelude/rtcg.cpp:1-102 -/
def rtcgCppLines : List Str :=
  [ c!"//",
    c!"// rtcg.cpp - functionality common to rtcg tests",
    c!"//",
    c!"// Copyright (C) 2023 University of York and others",
    c!"//",
    c!"// SPDX-License-Identifier: MIT",
    c!"//",
    c!"",
    c!"#include <ostream>",
    c!"",
    c!"#include \"rtcg.h\"",
    c!"",
    c!"//",
    c!"// Outcome",
    c!"//",
    c!"",
    c!"const char* rtcg::outstr(rtcg::Outcome o)",
    c!"{",
    c!"  switch (o)",
    c!"  {",
    c!"  case rtcg::Outcome::UNSET:",
    c!"    return \"unset\";",
    c!"  case rtcg::Outcome::INC:",
    c!"    return \"inconclusive\";",
    c!"  case rtcg::Outcome::PASS:",
    c!"    return \"passed\";",
    c!"  case rtcg::Outcome::FAIL:",
    c!"    return \"failed\";",
    c!"  }",
    c!"  return \"???\";",
    c!"}",
    c!"",
    c!"std::ostream& operator<<(std::ostream& stm, rtcg::Outcome o)",
    c!"{",
    c!"  return stm << rtcg::outstr(o);",
    c!"}",
    c!"",
    c!"//",
    c!"// Status",
    c!"//",
    c!"",
    c!"const char* rtcg::status::explain(rtcg::Status s)",
    c!"{",
    c!"  switch (s) {",
    c!"  case rtcg::Status::WAIT_START:",
    c!"    return \"waiting to start\";",
    c!"  case rtcg::Status::WAIT_IN:",
    c!"    return \"waiting for input acknowledgement\";",
    c!"  case rtcg::Status::WAIT_OUT:",
    c!"    return \"waiting for output\";",
    c!"  case rtcg::Status::OFF_SCRIPT:",
    c!"    return \"an event happened that took the test off-script\";",
    c!"  case rtcg::Status::TIMEOUT:",
    c!"    return \"the test ran out of time\";",
    c!"  case rtcg::Status::FAIL:",
    c!"    return \"an unwanted behaviour occurred\";",
    c!"  case rtcg::Status::BUG:",
    c!"    return \"an internal error occurred\";",
    c!"  default:",
    c!"    return \"unknown (this should not occur)\";",
    c!"  }",
    c!"}",
    c!"",
    c!"std::ostream& operator<<(std::ostream& stm, rtcg::Status o)",
    c!"{",
    c!"  return stm << rtcg::status::explain(o);",
    c!"}",
    c!"",
    c!"bool rtcg::status::isRunning(rtcg::Status s)",
    c!"{",
    c!"  switch (s)",
    c!"  {",
    c!"  case Status::WAIT_START:",
    c!"  case Status::WAIT_IN:",
    c!"  case Status::WAIT_OUT:",
    c!"    return true;",
    c!"  default:",
    c!"    return false;",
    c!"  }",
    c!"}",
    c!"",
    c!"int rtcg::status::exitCode(rtcg::Status s)",
    c!"{",
    c!"  switch (s)",
    c!"  {",
    c!"  case rtcg::Status::FAIL:",
    c!"    return 1;",
    c!"  case rtcg::Status::BUG:",
    c!"    return 2;",
    c!"  default:",
    c!"    return 0;",
    c!"  }",
    c!"}",
    c!"",
    c!"//",
    c!"// TestCase",
    c!"//",
    c!"",
    c!"rtcg::Status rtcg::TestCase::getStatus()",
    c!"{",
    c!"  return status_;",
    c!"}",
    c!"" ]

/-- gen/cpp/embed/prelude/rtcg.cpp, the whole file -/
def rtcgCpp : Str := unlines rtcgCppLines

/-- gen/cpp/embed/prelude/rtcg.h:1-80 -/
def rtcgHLines : List Str :=
  [ c!"//",
    c!"// rtcg.h - functionality common to rtcg tests",
    c!"//",
    c!"// Copyright (C) 2023 University of York and others",
    c!"//",
    c!"// SPDX-License-Identifier: MIT",
    c!"//",
    c!"",
    c!"#ifndef RTCG_H_DEFINED",
    c!"#define RTCG_H_DEFINED",
    c!"",
    c!"namespace rtcg",
    c!"{",
    c!"  //",
    c!"  // Outcome",
    c!"  //",
    c!"",
    c!"  // An inconclusive, passing, or failing outcome.",
    c!"  enum class Outcome {",
    c!"    UNSET, // Outcome not set.",
    c!"    INC,   // Inconclusive outcome.",
    c!"    PASS,  // Passing outcome.",
    c!"    FAIL   // Failing outcome.",
    c!"  };",
    c!"",
    c!"  // A string representation of an outcome.",
    c!"  const char* outstr(Outcome o);",
    c!"",
    c!"  //",
    c!"  // Status",
    c!"  //",
    c!"",
    c!"  // Statuses of a test-case.",
    c!"  enum class Status",
    c!"  {",
    c!"  // Test is running:",
    c!"    WAIT_START, // Test is waiting to start.",
    c!"    WAIT_IN,    // Test is waiting for an input acknowledgement.",
    c!"    WAIT_OUT,   // Test is waiting for an output acknowledgement.",
    c!"  // Test is not running:",
    c!"    OFF_SCRIPT, // We saw something that didn't match a transition.",
    c!"    TIMEOUT,    // We timed out waiting for something to happen.",
    c!"    FAIL,       // We failed a test.",
    c!"    BUG,        // Something went internally wrong inside the test.",
    c!"  };",
    c!"",
    c!"  namespace status",
    c!"  {",
    c!"    // Returns a (static) description of a status.",
    c!"    const char* explain(Status s);",
    c!"",
    c!"    // Gets whether this status means the test is still running.",
    c!"    bool isRunning(Status s);",
    c!"",
    c!"    // Converts a status into an exit code.",
    c!"    int exitCode(Status s);",
    c!"  }",
    c!"",
    c!"",
    c!"  //",
    c!"  // Test case",
    c!"  //",
    c!"",
    c!"  // Base class for test cases, containing functionality unchanged across all cases.",
    c!"  class TestCase",
    c!"  {",
    c!"  public:",
    c!"    Status getStatus(); // Gets the current status of the test.",
    c!"  protected:",
    c!"    Status status_ = Status::WAIT_START; // Current status of the test.",
    c!"  };",
    c!"}",
    c!"",
    c!"// Overloads stream output for Status (using rtcg::status::explain).",
    c!"std::ostream& operator<<(std::ostream& stm, rtcg::Status o);",
    c!"",
    c!"// Overloads stream output for Outcome (using rtcg::outstr).",
    c!"std::ostream& operator<<(std::ostream& stm, rtcg::Outcome o);",
    c!"",
    c!"#endif // RTCG_H_DEFINED",
    c!"" ]

/-- gen/cpp/embed/prelude/rtcg.h, the whole file -/
def rtcgH : Str := unlines rtcgHLines

end TemplateFiles

end Rtcg
