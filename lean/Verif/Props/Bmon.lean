import Verif.Props.CppWhole
import Verif.Model.ExampleFiles

/-
The example that comes with the repository, examples/bmon: the hypotheses of C110 and C115 are met by it, so they say what its programs do.
-/

namespace Rtcg.Bmon

open Spec Spec.Cpp Program Programs Harness

/-- The traces of examples/bmon/traces -/
def bmonTraces : List Forbidden :=
  [⟨c!"b1a", [], ⟨⟨c!"batteryStatus", .out⟩, .enum c!"Ok"⟩⟩,
   ⟨c!"b1b", [], ⟨⟨c!"batteryStatus", .out⟩, .enum c!"MissionCritical"⟩⟩,
   ⟨c!"b1c", [], ⟨⟨c!"batteryStatus", .out⟩, .enum c!"SafetyCritical"⟩⟩,
   ⟨c!"b2a", [⟨⟨c!"batteryInfo", .in_⟩, .int 100⟩], ⟨⟨c!"batteryInfo", .in_⟩, .int 100⟩⟩,
   ⟨c!"b2b", [⟨⟨c!"batteryInfo", .in_⟩, .int 30⟩], ⟨⟨c!"batteryInfo", .in_⟩, .int 30⟩⟩,
   ⟨c!"b2c", [⟨⟨c!"batteryInfo", .in_⟩, .int 20⟩], ⟨⟨c!"batteryInfo", .in_⟩, .int 20⟩⟩,
   ⟨c!"b3a", [⟨⟨c!"batteryInfo", .in_⟩, .int 100⟩], ⟨⟨c!"batteryStatus", .out⟩, .enum c!"MissionCritical"⟩⟩,
   ⟨c!"b3b", [⟨⟨c!"batteryInfo", .in_⟩, .int 100⟩], ⟨⟨c!"batteryStatus", .out⟩, .enum c!"SafetyCritical"⟩⟩,
   ⟨c!"b3c", [⟨⟨c!"batteryInfo", .in_⟩, .int 30⟩], ⟨⟨c!"batteryStatus", .out⟩, .enum c!"Ok"⟩⟩,
   ⟨c!"b3d", [⟨⟨c!"batteryInfo", .in_⟩, .int 30⟩], ⟨⟨c!"batteryStatus", .out⟩, .enum c!"SafetyCritical"⟩⟩,
   ⟨c!"b3e", [⟨⟨c!"batteryInfo", .in_⟩, .int 20⟩], ⟨⟨c!"batteryStatus", .out⟩, .enum c!"Ok"⟩⟩,
   ⟨c!"b3f", [⟨⟨c!"batteryInfo", .in_⟩, .int 20⟩], ⟨⟨c!"batteryStatus", .out⟩, .enum c!"MissionCritical"⟩⟩,
   ⟨c!"b4a", [⟨⟨c!"batteryInfo", .in_⟩, .int 100⟩, ⟨⟨c!"batteryStatus", .out⟩, .enum c!"Ok"⟩], ⟨⟨c!"batteryStatus", .out⟩, .enum c!"Ok"⟩⟩,
   ⟨c!"b4b", [⟨⟨c!"batteryInfo", .in_⟩, .int 100⟩, ⟨⟨c!"batteryStatus", .out⟩, .enum c!"Ok"⟩], ⟨⟨c!"batteryStatus", .out⟩, .enum c!"MissionCritical"⟩⟩,
   ⟨c!"b4c", [⟨⟨c!"batteryInfo", .in_⟩, .int 100⟩, ⟨⟨c!"batteryStatus", .out⟩, .enum c!"Ok"⟩], ⟨⟨c!"batteryStatus", .out⟩, .enum c!"SafetyCritical"⟩⟩,
   ⟨c!"b4d", [⟨⟨c!"batteryInfo", .in_⟩, .int 30⟩, ⟨⟨c!"batteryStatus", .out⟩, .enum c!"MissionCritical"⟩], ⟨⟨c!"batteryStatus", .out⟩, .enum c!"Ok"⟩⟩,
   ⟨c!"b4e", [⟨⟨c!"batteryInfo", .in_⟩, .int 30⟩, ⟨⟨c!"batteryStatus", .out⟩, .enum c!"MissionCritical"⟩], ⟨⟨c!"batteryStatus", .out⟩, .enum c!"MissionCritical"⟩⟩,
   ⟨c!"b4f", [⟨⟨c!"batteryInfo", .in_⟩, .int 30⟩, ⟨⟨c!"batteryStatus", .out⟩, .enum c!"MissionCritical"⟩], ⟨⟨c!"batteryStatus", .out⟩, .enum c!"SafetyCritical"⟩⟩,
   ⟨c!"b4g", [⟨⟨c!"batteryInfo", .in_⟩, .int 20⟩, ⟨⟨c!"batteryStatus", .out⟩, .enum c!"SafetyCritical"⟩], ⟨⟨c!"batteryStatus", .out⟩, .enum c!"Ok"⟩⟩,
   ⟨c!"b4h", [⟨⟨c!"batteryInfo", .in_⟩, .int 20⟩, ⟨⟨c!"batteryStatus", .out⟩, .enum c!"SafetyCritical"⟩], ⟨⟨c!"batteryStatus", .out⟩, .enum c!"MissionCritical"⟩⟩,
   ⟨c!"b4i", [⟨⟨c!"batteryInfo", .in_⟩, .int 20⟩, ⟨⟨c!"batteryStatus", .out⟩, .enum c!"SafetyCritical"⟩], ⟨⟨c!"batteryStatus", .out⟩, .enum c!"SafetyCritical"⟩⟩]

set_option maxRecDepth 100000 in
theorem read : Forbidden.read ExampleFiles.traces = some (.ok bmonTraces) := by decide +kernel

/-- A directory with the example -/
def fs : Fs := ⟨fun a => decide (a ∈ [[], [c!"examples"], [c!"examples", c!"bmon"]]), fun a =>
  if a = [c!"examples", c!"bmon", c!"traces"] then some (.user ExampleFiles.traces)
  else if a = [c!"examples", c!"bmon", c!"gen.xml"] then some (.user ExampleFiles.genXml)
  else if a = [c!"examples", c!"bmon", c!"ros", c!"src", c!"convert", c!"convert.cpp"] then some (.user ExampleFiles.rosConvert)
  else if a = [c!"examples", c!"bmon", c!"animate", c!"src", c!"convert", c!"convert.cpp"] then some (.user ExampleFiles.animateConvert) else none⟩

/-- No names beyond ASCII, and some date -/
def T : TextLayer := ⟨⟨fun _ => false, fun _ => false⟩, asciiUnicode, c!"today"⟩

def animate : CppConfig.Config := ⟨.animate, [], [⟨c!"batteryInfo", c!"float"⟩], true, none⟩

def ros : CppConfig.Config :=
  ⟨.ros, [⟨c!"std_msgs/Float32.h", false⟩, ⟨c!"sensor_msgs/BatteryState.h", false⟩],
    [⟨c!"batteryInfo", c!"sensor_msgs::BatteryState"⟩], false,
    some (some { Catkin.Package.zero with buildtoolDepends := [c!"catkin"], depends := [c!"roscpp", c!"std_msgs", c!"sensor_msgs"] })⟩

theorem reads : Reads T ⟨[], fs, []⟩ c!"examples/bmon/traces" ExampleFiles.traces := by
  refine .inr ⟨by decide, by decide, .user ExampleFiles.traces, ?_, rfl⟩
  rw [show locate [] c!"examples/bmon/traces" = [c!"examples", c!"bmon", c!"traces"] by decide]
  rfl

theorem loads : loadConfig T [] fs (cleanPath c!"examples/bmon/gen.xml") = .ok ⟨[animate, ros], c!"examples/bmon"⟩ := by
  have h : T.parseConfig ExampleFiles.genXml = .ok ⟨[animate, ros], []⟩ := by
    show Xml.parseConfig ⟨fun _ => false, fun _ => false⟩ ExampleFiles.genXml = _
    decide +kernel
  have hf : fs.file (locate [] (cleanPath c!"examples/bmon/gen.xml")) = some (.user ExampleFiles.genXml) := by
    rw [show locate [] (cleanPath c!"examples/bmon/gen.xml") = [c!"examples", c!"bmon", c!"gen.xml"] by decide]
    rfl
  unfold loadConfig
  rw [hf]
  simp only [TextLayer.text, h]
  rw [if_pos trivial, show dirPath (cleanPath c!"examples/bmon/gen.xml") = c!"examples/bmon" by decide]

theorem empty : EmptyAt fs (locate [] c!"out") := by
  rw [show locate [] c!"out" = [c!"out"] by decide]
  have hno : ∀ a : Loc, [c!"out"] <+: a → fs.file a = none := by
    rintro a ⟨r, rfl⟩
    simp only [fs, List.singleton_append, List.cons.injEq]
    rw [if_neg (fun h => absurd h.1 (by decide)), if_neg (fun h => absurd h.1 (by decide)), if_neg (fun h => absurd h.1 (by decide)),
      if_neg (fun h => absurd h.1 (by decide))]
  refine ⟨fun a ha => ?_, fun a ha hne => ⟨hno a ha, ?_⟩⟩
  · rcases List.prefix_cons_iff.1 ha with rfl | ⟨t, rfl, ht⟩
    · decide
    · exact hno _ (by rw [List.prefix_nil.1 ht])
  · obtain ⟨r, rfl⟩ := ha
    simp [fs]

theorem events : ∀ f ∈ bmonTraces, ∀ e ∈ eventsOf f, e.channel.name ≠ [] ∧ e.value ≠ .none := by decide

/-- The channels and their values -/
theorem kinds : ∀ f ∈ bmonTraces, ∀ e ∈ eventsOf f,
    (e.channel = ⟨c!"batteryInfo", .in_⟩ ∧ e.value.type = (Value.int 1).type) ∨
    (e.channel = ⟨c!"batteryStatus", .out⟩ ∧ e.value.type = (Value.enum c!"Ok").type) := by decide

theorem types : ¬ ∃ chan, Conflict (fun ty => ∃ f ∈ bmonTraces, TraceCarries f chan ty) := by
  rintro ⟨chan, x, y, ⟨f, hf, e, he, hc, rfl⟩, ⟨f', hf', e', he', hc', rfl⟩, hk⟩
  rcases kinds f hf e he with ⟨h1, h2⟩ | ⟨h1, h2⟩ <;> rcases kinds f' hf' e' he' with ⟨h3, h4⟩ | ⟨h3, h4⟩
  · exact hk (by rw [h2, h4])
  · rw [h1] at hc; rw [h3] at hc'; rw [← hc] at hc'; exact absurd hc' (by decide)
  · rw [h1] at hc; rw [h3] at hc'; rw [← hc] at hc'; exact absurd hc' (by decide)
  · exact hk (by rw [h2, h4])

/-- The script succeeds on the example. -/
theorem succeeds : ∃ fs', Program.script T ⟨[], fs, []⟩ [c!"examples/bmon/gen.xml", c!"examples/bmon/traces"] = (fs', 0) := by
  refine ⟨_, Prod.ext rfl (C91_succeeds T ⟨[], fs, []⟩ c!"examples/bmon/gen.xml" c!"examples/bmon/traces" ExampleFiles.traces bmonTraces
    ⟨[animate, ros], c!"examples/bmon"⟩ (by decide) reads read (by decide) events types (by decide) loads (by decide) empty ?_ ?_)⟩
  · decide
  · intro c hcc
    have : ∃ ch ∈ c.channels, ch.name = c!"batteryInfo" := by
      simp only [List.mem_cons, List.not_mem_nil, or_false] at hcc
      rcases hcc with rfl | rfl <;> exact ⟨_, List.mem_singleton.2 rfl, rfl⟩
    obtain ⟨ch, h1, h2⟩ := this
    have h3 : ∃ f ∈ bmonTraces, ∃ e ∈ eventsOf f, e.channel.name = c!"batteryInfo" := by decide
    refine ⟨⟨ch, h1, by rw [h2]; exact h3⟩, ?_⟩
    simp only [List.mem_cons, List.not_mem_nil, or_false] at hcc
    rcases hcc with rfl | rfl <;> decide

theorem named : Forbidden.nameAll bmonTraces = some (bmonTraces.map fun f => (f.name, f)) := by decide +kernel

theorem names (v : Variant) : ∀ f ∈ bmonTraces, TraceNames asciiUnicode v f f.name := by
  have h1 : ∀ f ∈ bmonTraces, (∀ e ∈ eventsOf f, WordName e.channel.name ∧ Cpp.GoodValue e.value) ∧
      (Ident f.name ∧ f.name ≠ c!"Verdict" ∧ f.name ≠ c!"dump") := by
    unfold WordName Cpp.GoodValue Cpp.Plain Ident; decide
  intro f hf
  have hk := kinds f hf
  refine ⟨(h1 f hf).1, (h1 f hf).2, ?_, ?_, ?_, ?_⟩
  · intro e he
    rcases hk e he with ⟨h, _⟩ | ⟨h, _⟩ <;> rw [h] <;> decide
  · intro e he e' he'
    rcases hk e he with ⟨h, _⟩ | ⟨h, _⟩ <;> rcases hk e' he' with ⟨h', _⟩ | ⟨h', _⟩ <;> rw [h, h'] <;> decide
  · intro _ e he
    refine ⟨fun e' he' => ?_, ?_⟩
    · rcases hk e he with ⟨h, _⟩ | ⟨h, _⟩ <;> rcases hk e' he' with ⟨h', _⟩ | ⟨h', _⟩ <;> rw [h, h'] <;> decide
    · rcases hk e he with ⟨h, _⟩ | ⟨h, _⟩ <;> rw [h] <;> decide
  · intro e he e' he' g hg
    rcases hk e he with ⟨h, _⟩ | ⟨h, _⟩ <;> rcases hk e' he' with ⟨h', _⟩ | ⟨h', _⟩ <;> rw [h] at hg <;> rw [h'] <;>
      (refine ⟨?_, fun _ => ?_⟩ <;> revert g <;> decide)

theorem statusType : LeastUpper (fun ty => ∃ f ∈ bmonTraces, TraceCarries f c!"batteryStatus" ty) (Value.enum c!"Ok").type := by
  constructor
  · rintro ty ⟨f, hf, e, he, h1, rfl⟩
    rcases kinds f hf e he with ⟨h, h'⟩ | ⟨h, h'⟩
    · rw [h] at h1; exact absurd h1 (by decide)
    · rw [h']; exact .inl rfl
  · intro u hu
    exact hu _ ⟨bmonTraces[0], by decide, ⟨⟨c!"batteryStatus", .out⟩, .enum c!"Ok"⟩, by decide, rfl, rfl⟩

theorem convertNames : ConvertNames asciiUnicode animate (TraceChannel bmonTraces) := by
  have hall : ∀ ch, TraceChannel bmonTraces ch → ch = c!"batteryInfo" ∨ ch = c!"batteryStatus" := by
    rintro _ ⟨f, hf, e, he, rfl⟩
    rcases kinds f hf e he with ⟨h, _⟩ | ⟨h, _⟩ <;> rw [h] <;> simp
  refine ⟨?_, ?_, by simp [animate], ?_⟩
  · intro ch h
    rcases hall ch h with rfl | rfl <;> unfold WordName <;> decide
  · intro a b ha hb
    rcases hall a ha with rfl | rfl <;> rcases hall b hb with rfl | rfl <;> decide
  · unfold OneLine; decide

/-- C115 for the example: run on it, the script leaves for each of its 21 traces an animation that, with any libraries that have streams and
the two conversions of batteryInfo, and whatever words are typed (with strings as values of batteryStatus), ends with exit code 1 exactly if
what they mean begins with the whole trace, and waits for more exactly while it is a proper part of it. -/
theorem animations : ∃ fs', Program.script T ⟨[], fs, []⟩ [c!"examples/bmon/gen.xml", c!"examples/bmon/traces"] = (fs', 0) ∧
    ∀ f ∈ bmonTraces, ∃ P, OnDiskWhole T fs' [c!"out", c!"animate"] f.name P ∧
      ∀ L : Lib, (∀ x ∈ [c!"cerr", c!"cout", c!"endl"], L.known [c!"std", x] = true) →
        L.takes [c!"toBatteryInfo"] 1 = true → L.takes [c!"fromBatteryInfo"] 1 = true →
      ∀ ws : List (Str × Value), (∀ w ∈ ws, w.1 = c!"batteryStatus" → ∃ s, w.2 = .enum s) →
      let seen := (meanings f [] ws).filter (counts f)
      ∀ rest fuel depth, (Ongoing f (meanings f [] ws) → rest = []) → ws.length < fuel → 7 ≤ depth →
      let r := runMain P L fuel depth [] (typing f [] ws ++ rest) []
      ∃ st', (r = .wait st' ∨ ∃ k ∈ [0, 1], r = .ok (.int k) st') ∧ (r = .wait st' ↔ Ongoing f (meanings f [] ws)) ∧
        (r = .ok (.int 1) st' ↔ Spec.script f <+: seen) ∧ st'.input = rest := by
  obtain ⟨fs', hrun⟩ := succeeds
  refine ⟨fs', hrun, fun f hf => ?_⟩
  obtain ⟨cfg, nm, h1, h2, h3⟩ := C115_traces (T := T) asciiUnicode_ok (by decide) reads read events types (by decide) (by unfold OneLine; decide) hrun
  rw [loads] at h1
  cases h1
  rw [named] at h2
  cases h2
  obtain ⟨P, hP, hL⟩ := h3 (by decide) animate (List.mem_cons_self ..) rfl convertNames f.name f (List.mem_map.2 ⟨f, hf, rfl⟩) (names _ f hf)
  refine ⟨P, hP, fun L l1 l2 l3 ws hws rest fuel depth hrest hfuel hdepth => ?_⟩
  have hl : WholeLib L T.unicode animate (fun ch => ∃ e ∈ eventsOf f, e.channel.name = ch) := by
    refine ⟨l1, ?_⟩
    rintro _ ⟨e, he, rfl⟩ ho
    rcases kinds f hf e he with ⟨h, _⟩ | ⟨h, _⟩
    · rw [h]; exact ⟨l2, l3⟩
    · rw [h] at ho; exact absurd ho (by decide)
  obtain ⟨st', k1, k2, k3, k4, _⟩ := hL L hl ws (by
    intro w hw e he hk hn
    rcases kinds f hf e he with ⟨h, _⟩ | ⟨h, _⟩
    · rw [h] at hk; exact absurd rfl hk
    · rw [h] at hn
      obtain ⟨s, hs⟩ := hws w hw hn.symm
      rw [← hn, hs]
      exact ⟨⟨_, statusType, by show RsType.isEnum _ = true; decide⟩, fun ho => absurd ho (by decide)⟩) rest [] fuel depth hrest hfuel hdepth
  exact ⟨st', k1, k2, k3, k4⟩

/-- C110 for the example: … and a ROS program that, with any libraries that have the parts of ROS and the conversions, and whatever callbacks
ROS calls in it (with strings for messages of batteryStatus), ends with exit code 1 exactly if what it sees begins with the whole trace. -/
theorem rosPrograms : ∃ fs', Program.script T ⟨[], fs, []⟩ [c!"examples/bmon/gen.xml", c!"examples/bmon/traces"] = (fs', 0) ∧
    ∀ f ∈ bmonTraces, ∃ P, OnDisk T fs' [c!"out", c!"ros"] f.name P ∧
      ∀ L : Lib, TraceLib L asciiUnicode .ros f →
      ∀ xs : List (Callback × List Cpp.Val), (∀ x ∈ xs, TraceCallback f x.1 ∧ ArgsOf L asciiUnicode .ros x.1 x.2) →
      ∀ argc argv input fuel depth, 6 ≤ depth →
      let r := runMain P L fuel depth [argc, argv] input (xs.map eventOf)
      let seen := (xs.map (·.1)).filter (counts f)
      ∃ st', (r = .wait st' ∨ ∃ k ∈ [0, 1, 2], r = .ok (.int k) st') ∧
        (r = .wait st' ↔ seen <+: Spec.script f ∧ seen ≠ Spec.script f) ∧ (r = .ok (.int 1) st' ↔ Spec.script f <+: seen) := by
  obtain ⟨fs', hrun⟩ := succeeds
  refine ⟨fs', hrun, fun f hf => ?_⟩
  obtain ⟨cfg, nm, h1, h2, h3⟩ := C110_ros (T := T) asciiUnicode_ok (by decide) reads read events types (by decide) (by unfold OneLine; decide) hrun
  rw [loads] at h1
  cases h1
  rw [named] at h2
  cases h2
  obtain ⟨P, hP, hL⟩ := h3 (by decide) ros (by simp) rfl (by unfold OneLine; decide) f.name f (List.mem_map.2 ⟨f, hf, rfl⟩) (names _ f hf)
  refine ⟨P, hP, fun L hl xs hx argc argv input fuel depth hdepth => ?_⟩
  obtain ⟨st', k1, k2, k3, _⟩ := hL L hl xs hx argc argv input fuel depth hdepth
  exact ⟨st', k1, k2, k3⟩

end Rtcg.Bmon
