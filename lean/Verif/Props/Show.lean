import Verif.Proofs.Show
import Verif.Proofs.JsonRead
import Verif.Props.Csv
import Verif.Props.StmAgg

/-
C116: descriptions tell things apart.  `p` is the table of characters that are printed as they are; it does not matter.
-/

namespace Rtcg
open Rtcg.Spec

/-- Two values that are there have the same description only if they are the same. -/
theorem C116_values (p : Char → Bool) {v w : Value} (hv : v ≠ .none) (hw : w ≠ .none) (h : v.string p = w.string p) : v = w := by
  have ne : ∀ {v : Value}, v ≠ .none → v.isEmpty = false := by intro v hv; cases v <;> first | rfl | exact absurd rfl hv
  have h' : v.string p ++ [] = w.string p ++ [] := by rw [h]
  exact (Show.value_inj p (ne hv) (ne hw) (.inl rfl) (.inl rfl) h').1

/-- Two events on channels that have a name, without dots, have the same description only if they are the same. -/
theorem C116_events (p : Char → Bool) {e f : Event} (he : e.channel.name ≠ [] ∧ '.' ∉ e.channel.name)
    (hf : f.channel.name ≠ [] ∧ '.' ∉ f.channel.name) (h : e.string p = f.string p) : e = f := by
  have h' : e.string p ++ [] = f.string p ++ [] := by rw [h]
  exact (Show.event_inj p he hf (.inl rfl) (.inl rfl) h').1

/-- Two traces of such events have the same description only if they are the same: same length, same events. -/
theorem C116_traces (p : Char → Bool) {t u : Trace} (ht : ∀ e ∈ t, e.channel.name ≠ [] ∧ '.' ∉ e.channel.name)
    (hu : ∀ e ∈ u, e.channel.name ≠ [] ∧ '.' ∉ e.channel.name) (h : t.string p = u.string p) : t = u :=
  Show.trace_inj p ht hu h

/-- Two forbidden traces of such events, if their names have no colon and do not begin with `<`, have the same description only if they are the
same: same name (or none), same prefix, same forbidden event. -/
theorem C116_forbidden (p : Char → Bool) {t u : Forbidden}
    (ht : ∀ e ∈ t.pre ++ [t.forbid], e.channel.name ≠ [] ∧ '.' ∉ e.channel.name)
    (hu : ∀ e ∈ u.pre ++ [u.forbid], e.channel.name ≠ [] ∧ '.' ∉ e.channel.name)
    (nt : ':' ∉ t.name ∧ t.name.head? ≠ some '<') (nu : ':' ∉ u.name ∧ u.name.head? ≠ some '<')
    (h : t.string p = u.string p) : t = u :=
  Show.forbidden_inj p ht hu nt nu h

/-- What is read from a traces file has dot-free channel names and colon-free names, so two traces read from traces files have the same
description only if they are the same, unless a channel has no name or the trace's name begins with `<`. -/
theorem C116_read (p : Char → Bool) {s s' : Str} {ts ts' : List Forbidden} (h : Forbidden.read s = some (.ok ts))
    (h' : Forbidden.read s' = some (.ok ts')) {t u : Forbidden} (ht : t ∈ ts) (hu : u ∈ ts')
    (et : (∀ e ∈ t.pre ++ [t.forbid], e.channel.name ≠ []) ∧ t.name.head? ≠ some '<')
    (eu : (∀ e ∈ u.pre ++ [u.forbid], e.channel.name ≠ []) ∧ u.name.head? ≠ some '<')
    (hs : t.string p = u.string p) : t = u := by
  have key : ∀ {s ts t}, Forbidden.read s = some (.ok ts) → t ∈ ts → (∀ e ∈ t.pre ++ [t.forbid], '.' ∉ e.channel.name) ∧ ':' ∉ t.name := by
    intro s ts t h ht
    obtain ⟨rows, -, hr⟩ := (C14_ok_iff s ts).1 h
    have : ∀ {rows ts}, List.Forall₂ RowDenotes rows ts → ∀ t ∈ ts, ∃ row, RowDenotes row t := by
      intro rows ts h
      induction h with
      | nil => intro t ht; cases ht
      | cons h _ ih =>
        intro t ht
        rcases List.mem_cons.1 ht with rfl | ht
        · exact ⟨_, h⟩
        · exact ih t ht
    obtain ⟨row, cell0, cells, text0, -, hn, hp⟩ := this hr t ht
    constructor
    · intro e he
      have hm : (Except.ok e : Res Event) ∈ (t.pre ++ [t.forbid]).map Except.ok := List.mem_map_of_mem he
      rw [← hp] at hm
      obtain ⟨text, -, hx⟩ := List.mem_map.1 hm
      exact (readEvent_parse hx).1.2.1
    · rcases hn with ⟨_, e, _⟩ | ⟨a, b, _, ha, ⟨_, l, r, e, _, _⟩, _⟩
      · rw [e]; simp
      · intro hc; exact ha (by rw [e]; simp [hc])
  obtain ⟨k1, k2⟩ := key h ht
  obtain ⟨k3, k4⟩ := key h' hu
  exact C116_forbidden p (fun e he => ⟨et.1 e he, k1 e he⟩) (fun e he => ⟨eu.1 e he, k3 e he⟩) ⟨k2, et.2⟩ ⟨k4, eu.2⟩ hs

/-- The exceptions are real: without a name, the direction of a channel is not told, … -/
theorem C116_nameless (p : Char → Bool) : ∃ t u : Forbidden, Forbidden.read c!".in\n" = some (.ok [t]) ∧ Forbidden.read c!".out\n" = some (.ok [u]) ∧
    t ≠ u ∧ t.string p = u.string p :=
  ⟨⟨[], [], ⟨⟨[], .in_⟩, .none⟩⟩, ⟨[], [], ⟨⟨[], .out⟩, .none⟩⟩, by rfl, by rfl, by decide, rfl⟩

/-- … and a name that begins with `<` can look like a trace. -/
theorem C116_angle (p : Char → Bool) : ∃ t u : Forbidden, Forbidden.read c!"a.in,x:<b.in,c.in\n" = some (.ok [t]) ∧
    Forbidden.read c!"\"<a.in, x: b.in\",c.in\n" = some (.ok [u]) ∧ t ≠ u ∧ t.string p = u.string p :=
  ⟨⟨[], [⟨⟨c!"a", .in_⟩, .none⟩, ⟨⟨c!"x:<b", .in_⟩, .none⟩], ⟨⟨c!"c", .in_⟩, .none⟩⟩,
    ⟨c!"<a.in, x", [⟨⟨c!"b", .in_⟩, .none⟩], ⟨⟨c!"c", .in_⟩, .none⟩⟩, by rfl, by rfl, by decide, rfl⟩

/-- Two verdicts on tests whose names have no colon have the same description only if they say the same of every test. -/
theorem C116_verdicts {v w : Verdict} (nv : ∀ t o, GoMap.get? v t = some o → ':' ∉ t)
    (nw : ∀ t o, GoMap.get? w t = some o → ':' ∉ t) (h : v.string = w.string) : ∀ t, GoMap.get? v t = GoMap.get? w t := by
  have mem : ∀ (v : Verdict) t, t ∈ v.tests ↔ t ∈ v.keys := by intro v t; unfold Verdict.tests; simp
  have colon : ∀ (v : Verdict), (∀ t o, GoMap.get? v t = some o → ':' ∉ t) → ∀ t ∈ v.tests, ':' ∉ t := by
    intro v nv t ht
    cases hg : GoMap.get? v t with
    | none => rw [GoMap.get?_eq_none_iff] at hg; exact absurd ((mem v t).1 ht) hg
    | some o => exact nv t o hg
  have hl := Show.items_inj (colon v nv) (colon w nw) h
  intro t
  by_cases ht : t ∈ v.keys
  · have hm : (t, (GoMap.get? v t).getD .unset) ∈ v.tests.map fun t => (t, (GoMap.get? v t).getD .unset) :=
      List.mem_map_of_mem (f := fun t => (t, (GoMap.get? v t).getD Outcome.unset)) ((mem v t).2 ht)
    rw [hl] at hm
    obtain ⟨t', ht', e⟩ := List.mem_map.1 hm
    simp only [Prod.mk.injEq] at e
    obtain ⟨rfl, e⟩ := e
    have h1 : GoMap.get? v t' ≠ none := by rw [Ne, GoMap.get?_eq_none_iff]; simpa using ht
    have h2 : GoMap.get? w t' ≠ none := by rw [Ne, GoMap.get?_eq_none_iff]; simpa using (mem w t').1 ht'
    obtain ⟨a, ha⟩ := Option.ne_none_iff_exists'.1 h1
    obtain ⟨b, hb⟩ := Option.ne_none_iff_exists'.1 h2
    rw [ha, hb] at e ⊢
    exact congrArg some e.symm
  · have hw' : t ∉ w.keys := by
      intro hk
      have : t ∈ (w.tests.map fun t => (t, (GoMap.get? w t).getD Outcome.unset)).map Prod.fst := by
        simp only [List.map_map]; exact List.mem_map.2 ⟨t, (mem w t).2 hk, rfl⟩
      rw [← hl] at this
      simp only [List.map_map, List.mem_map] at this
      obtain ⟨t', h', rfl⟩ := this
      exact ht ((mem v _).1 h')
    rw [GoMap.get?_eq_none_iff.2 ht, GoMap.get?_eq_none_iff.2 hw']

/-! ### The descriptions of trace/trace_test.go, TestForbidden_String, and some more -/

/-- As far as the examples go: ASCII letters are printable. -/
def exPrint (c : Char) : Bool := ' ' ≤ c ∧ c < '\x7f'

example : Forbidden.string exPrint ⟨[], [], Event.output c!"bar" .none⟩ = c!"<>!bar.out" := by decide +kernel
example : Forbidden.string exPrint ⟨[], [Event.input c!"foo" .none], Event.output c!"bar" .none⟩ = c!"<foo.in>!bar.out" := by decide +kernel
example : Forbidden.string exPrint ⟨c!"named", [Event.input c!"foo" .none, Event.output c!"baz" (.int 2), Event.input c!"foo" .none],
    Event.output c!"bar" .none⟩ = c!"named:<foo.in, baz.out.int!2, foo.in>!bar.out" := by decide +kernel
example : Event.string exPrint (Event.output c!"say" (.enum c!"a\"b\\\n\u00e9")) = c!"say.out.enum!\"a\\\"b\\\\\\n\\u00e9\"" := by decide +kernel
example : State.string exPrint ⟨c!"x_0", [⟨⟨c!"baz", .out⟩, [⟨.int (-2), c!"x_1"⟩]⟩], [(c!"x", .inc)]⟩ =
    c!"x_0:{x: inc}(baz.out:{-[int!-2]-> x_1})" := by decide +kernel

/-- The hypotheses are met by what a traces file holds, here with commas, angle brackets and quotes in names and values. -/
example : ∃ t u, Forbidden.read c!"\"n:>!a.in\",\"b,>.out.-3\",c.out.Ok\n\">!a.in\",\"b,>.out.3\",c.out\n" = some (.ok [t, u]) ∧
    (∀ t' ∈ [t, u], (∀ e ∈ t'.pre ++ [t'.forbid], e.channel.name ≠ []) ∧ t'.name.head? ≠ some '<') ∧ t.string exPrint ≠ u.string exPrint := by
  refine ⟨⟨c!"n", [⟨⟨c!">!a", .in_⟩, .none⟩, ⟨⟨c!"b,>", .out⟩, .int (-3)⟩], ⟨⟨c!"c", .out⟩, .enum c!"Ok"⟩⟩,
    ⟨[], [⟨⟨c!">!a", .in_⟩, .none⟩, ⟨⟨c!"b,>", .out⟩, .int 3⟩], ⟨⟨c!"c", .out⟩, .none⟩⟩, ?_, by decide, by decide +kernel⟩
  rfl

end Rtcg
