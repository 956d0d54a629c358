import Verif.Proofs.ConfigChange

/-
Which configurations there are documents for: those with no character that no document may have.
-/

namespace Rtcg.ConfigSay

open Rtcg Rtcg.Spec Rtcg.Spec.ConfigXml Rtcg.Spec.XmlText

/-- A tree with only characters that a document may have. -/
inductive Clean : Xml → Prop
  | text {s : Str} (h : ∀ c ∈ s, XmlChar c) : Clean (.text s)
  | elem {n : Str} {as : List (Str × Str)} {ks : List Xml} (ha : ∀ a ∈ as, ∀ c ∈ a.2, XmlChar c) (hk : ∀ k ∈ ks, Clean k) :
      Clean (.elem n as ks)

theorem text_clean {plain : Char → Prop} {refs : Prop} {t s : Str} (h : Text plain refs t s) : ∀ c ∈ s, XmlChar c := by
  induction h with
  | nil => simp
  | char hc hx hr h ih => intro c hc; rcases List.mem_cons.1 hc with rfl | hc; exacts [hx, ih c hc]
  | ref hrefs hr hx h ih => intro c hc; rcases List.mem_cons.1 hc with rfl | hc; exacts [hx, ih c hc]
  | crlf h ih => intro c hc; rcases List.mem_cons.1 hc with rfl | hc; exacts [Or.inl (by simp), ih c hc]
  | cr ht h ih => intro c hc; rcases List.mem_cons.1 hc with rfl | hc; exacts [Or.inl (by simp), ih c hc]

theorem attrs_clean {N : XmlNames} {t : Str} {as : List (Str × Str)} (h : Attributes N t as) : ∀ a ∈ as, ∀ c ∈ a.2, XmlChar c := by
  induction h with
  | nil => simp
  | cons hw hn hl hw1 hw2 hv h ih =>
    intro a ha
    rcases List.mem_cons.1 ha with rfl | ha
    · obtain ⟨q, body, -, -, ht⟩ := hv
      exact text_clean ht
    · exact ih a ha

theorem element_clean {N : XmlNames} {t : Str} {x : Xml} (h : Element N t x) : Clean x := by
  refine Element.rec (N := N) (motive_1 := fun _ x _ => Clean x) (motive_2 := fun _ ks _ => ∀ k ∈ ks, Clean k)
    ?_ ?_ ?_ ?_ ?_ ?_ ?_ h
  · rintro t name l as ⟨ta, w, -, -, h, -⟩ -
    exact .elem (attrs_clean h) (by simp)
  · rintro t name l tc w as kids ⟨ta, w', -, -, h, -⟩ - - - ih
    exact .elem (attrs_clean h) ih
  · simp
  · intro t s r kids ht _ _ _ ih k hk
    rcases List.mem_cons.1 hk with rfl | hk
    · exact .text (text_clean ht.1)
    · exact ih k hk
  · rintro t s r kids ⟨body, -, ht, -⟩ _ ih k hk
    rcases List.mem_cons.1 hk with rfl | hk
    · exact .text (text_clean ht)
    · exact ih k hk
  · intro t r kids _ _ ih
    exact ih
  · intro t r x kids _ _ ih1 ih2 k hk
    rcases List.mem_cons.1 hk with rfl | hk
    · exact ih1
    · exact ih2 k hk

/-- An element's body of such characters. -/
def CleanBody (b : Body) : Prop := (∀ a ∈ b.1, ∀ c ∈ a.2, XmlChar c) ∧ ∀ k ∈ b.2, Clean k

theorem named_clean {n : Str} {ks : List Xml} (h : ∀ k ∈ ks, Clean k) : ∀ b ∈ named n ks, CleanBody b := by
  intro b hb
  obtain ⟨k, hk, e⟩ := List.mem_filterMap.1 hb
  cases k with
  | text s => simp at e
  | elem m as kids =>
    simp only at e
    split at e
    · cases e
      cases h _ hk with
      | elem ha hk => exact ⟨ha, hk⟩
    · cases e

theorem textIn_clean {b : Body} (h : CleanBody b) : ∀ c ∈ textIn b, XmlChar c := by
  intro c hc
  obtain ⟨s, hs, hc⟩ := List.mem_flatten.1 hc
  obtain ⟨k, hk, e⟩ := List.mem_filterMap.1 hs
  cases k with
  | text t =>
    cases e
    cases h.2 _ hk with
    | text h => exact h c hc
  | elem m as kids => cases e

theorem values_clean {n : Str} {as : List (Str × Str)} (h : ∀ a ∈ as, ∀ c ∈ a.2, XmlChar c) : ∀ v ∈ values n as, ∀ c ∈ v, XmlChar c := by
  intro v hv
  obtain ⟨a, ha, rfl⟩ := List.mem_map.1 hv
  exact h a (List.mem_of_mem_filter ha)

theorem last_clean {l : List Str} (h : ∀ v ∈ l, ∀ c ∈ v, XmlChar c) : ∀ c ∈ last l, XmlChar c := by
  unfold last
  cases l with
  | nil => simp
  | cons a l => exact h _ (by rw [List.getLastD_cons]; exact List.getLastD_mem_cons)

theorem texts_clean {n : Str} {ks : List Xml} (h : ∀ k ∈ ks, Clean k) : ∀ v ∈ (named n ks).map textIn, ∀ c ∈ v, XmlChar c := by
  intro v hv
  obtain ⟨b, hb, rfl⟩ := List.mem_map.1 hv
  exact textIn_clean (named_clean h b hb)

theorem kids_clean {bs : List Body} (h : ∀ b ∈ bs, CleanBody b) : ∀ k ∈ bs.flatMap (·.2), Clean k := by
  intro k hk
  obtain ⟨b, hb, hk⟩ := List.mem_flatMap.1 hk
  exact (h b hb).2 k hk

theorem lastOf_mem {α : Type} {R : Str → α → Prop} {d : α} {l : List Str} {a : α} {P : α → Prop} (h : LastOf R d l a) (hd : P d)
    (hR : ∀ s a, R s a → P a) : P a := by
  obtain ⟨as, hf, rfl⟩ := h
  have : ∀ x ∈ as, P x := by
    clear hd
    induction hf with
    | nil => simp
    | cons h _ ih => intro x hx; rcases List.mem_cons.1 hx with rfl | hx; exacts [hR _ _ h, ih x hx]
  cases as with
  | nil => exact hd
  | cons b as => rw [List.getLastD_cons]; exact this _ (List.getLastD_mem_cons)

theorem package_fits {bs : List Body} (h : ∀ b ∈ bs, CleanBody b) {p : Catkin.Package} (hp : PackageIs bs p) : PackageFits p := by
  have hk := kids_clean h
  have hi : -2 ^ 63 ≤ p.format ∧ p.format < 2 ^ 63 := by
    refine lastOf_mem (P := fun i : Int => -2 ^ 63 ≤ i ∧ i < 2 ^ 63) hp.format ⟨by decide, by decide⟩ ?_
    rintro s i (⟨-, rfl⟩ | ⟨t, -, -, h1, h2⟩)
    · exact ⟨by decide, by decide⟩
    · exact ⟨h1, h2⟩
  refine ⟨hi.1, hi.2, ?_⟩
  intro s hs
  have hl : ∀ n, ∀ c ∈ last ((named n (bs.flatMap (·.2))).map textIn), XmlChar c := fun n => last_clean (texts_clean hk)
  simp only [packageTexts, List.mem_append, List.mem_cons, List.not_mem_nil, or_false] at hs
  rcases hs with ((rfl | rfl | rfl | rfl | rfl | rfl) | hs) | hs
  · rw [hp.name]; exact hl _
  · rw [hp.version]; exact hl _
  · rw [hp.description]; exact hl _
  · rw [hp.maintainer]; exact hl _
  · rw [hp.email]
    refine last_clean (values_clean ?_)
    intro a ha
    obtain ⟨b, hb, ha⟩ := List.mem_flatMap.1 ha
    exact (named_clean hk b hb).1 a ha
  · rw [hp.license]; exact hl _
  · rw [hp.buildtool] at hs; exact texts_clean hk s hs
  · rw [hp.depends] at hs; exact texts_clean hk s hs

theorem forall₂_right {α : Type} {R : Body → α → Prop} {Q : Body → Prop} {P : α → Prop} {l : List Body} {as : List α} (h : List.Forall₂ R l as)
    (hl : ∀ b ∈ l, Q b) (hR : ∀ b a, R b a → Q b → P a) : ∀ a ∈ as, P a := by
  induction h with
  | nil => simp
  | cons h _ ih =>
    intro a ha
    rcases List.mem_cons.1 ha with rfl | ha
    · exact hR _ _ h (hl _ (by simp))
    · exact ih (fun b hb => hl b (by simp [hb])) a ha

theorem cpp_fits {b : Body} (h : CleanBody b) {c : CppConfig.Config} (hc : CppIs b c) : CppFits c := by
  refine ⟨?_, ?_, ?_, ?_⟩
  · refine lastOf_mem (P := fun v => v = Variant.animate ∨ v = Variant.ros) hc.variant (Or.inl rfl) ?_
    rintro s v (⟨-, rfl⟩ | ⟨-, rfl⟩)
    · exact Or.inl rfl
    · exact Or.inr rfl
  · refine forall₂_right hc.includes (named_clean h.2) ?_
    intro b i hi hb
    rw [hi.src]
    exact last_clean (values_clean hb.1)
  · refine forall₂_right hc.channels (named_clean h.2) ?_
    intro b i hi hb
    rw [hi.name, hi.type]
    exact ⟨last_clean (values_clean hb.1), last_clean (values_clean hb.1)⟩
  · intro p hp
    have := hc.catkin
    rw [hp] at this
    exact package_fits (named_clean (kids_clean (named_clean h.2))) this.2.2

theorem says_fits {N : XmlNames} {text : Str} {cfg : GenConfig} (h : Says N text cfg) : ConfigFits cfg := by
  obtain ⟨x, ⟨p, t, r, -, -, he⟩, ⟨as, kids, rfl, h1, h2⟩⟩ := h
  cases element_clean he with
  | elem ha hk =>
    refine ⟨forall₂_right h1 (named_clean hk) fun b c hc hb => cpp_fits hb hc, ?_⟩
    rw [h2]
    exact last_clean (texts_clean hk)

/-! ### comments and the like -/

theorem content_append {N : XmlNames} {a : Str} {k : List Xml} (h : Spec.XmlText.Content N a k) {b : Str} {l : List Xml}
    (hb : b = [] ∨ ∃ q, b = '<' :: q) (h2 : Spec.XmlText.Content N b l) : Spec.XmlText.Content N (a ++ b) (k ++ l) := by
  refine Spec.XmlText.Content.rec (N := N) (motive_1 := fun _ _ _ => True)
    (motive_2 := fun a k _ => Spec.XmlText.Content N (a ++ b) (k ++ l)) ?_ ?_ ?_ ?_ ?_ ?_ ?_ h
  · intros; trivial
  · intros; trivial
  · exact h2
  · intro t s r kids ht hne hr _ ih
    rw [List.append_assoc]
    refine .text ht hne ?_ ih
    rcases hr with rfl | ⟨q, rfl⟩
    · exact hb
    · exact Or.inr ⟨q ++ b, rfl⟩
  · intro t s r kids ht _ ih
    rw [List.append_assoc]
    exact .cdata ht ih
  · intro t r kids ht _ ih
    rw [List.append_assoc]
    exact .misc ht ih
  · intro t r x kids ht _ _ ih
    rw [List.append_assoc]
    exact .element ht ih

theorem misc_begins {N : XmlNames} {t : Str} (h : Misc N t) : ∃ q, t = '<' :: q := by
  rcases h with ⟨a, w, c, rfl, -⟩ | ⟨b, rfl, -⟩ | ⟨c, b, rfl, -⟩ <;> exact ⟨_, rfl⟩

theorem element_begins {N : XmlNames} {t : Str} {x : Xml} (h : Element N t x) : ∃ q, t = '<' :: q := by
  cases h <;> exact ⟨_, rfl⟩

theorem content_nil {N : XmlNames} {k : List Xml} (h : Spec.XmlText.Content N [] k) : k = [] := by
  generalize e : ([] : Str) = t at h
  cases h with
  | nil => rfl
  | text ht hne hr h => simp at e; exact absurd e.1 hne
  | cdata ht h => obtain ⟨b, rfl, -⟩ := ht; simp at e
  | misc ht h => obtain ⟨q, rfl⟩ := misc_begins ht; simp at e
  | element ht h => cases ht <;> simp at e

theorem text_append {plain : Char → Prop} {refs : Prop} {t s t' s' : Str} (h : Text plain refs t s) (h' : Text plain refs t' s')
    (hr : t.getLast? ≠ some '\r') : Text plain refs (t ++ t') (s ++ s') := by
  induction h with
  | nil => exact h'
  | @char c t s hc hx hcr h ih =>
    refine .char hc hx hcr (ih fun e => hr ?_)
    cases t with
    | nil => cases e
    | cons a t => rw [List.getLast?_cons_cons]; exact e
  | @ref r t s c hrefs hrf hx h ih =>
    rw [List.append_assoc]
    refine .ref hrefs hrf hx (ih fun e => hr ?_)
    cases t with
    | nil => cases e
    | cons a t => rw [List.getLast?_append, e]; rfl
  | @crlf t s h ih =>
    refine .crlf (ih fun e => hr ?_)
    cases t with
    | nil => cases e
    | cons a t => rw [List.getLast?_cons_cons, List.getLast?_cons_cons]; exact e
  | @cr t s ht h ih =>
    refine .cr ?_ (ih fun e => hr ?_)
    · intro q e
      cases t with
      | nil => exact hr rfl
      | cons a t => cases e; exact ht _ rfl
    · cases t with
      | nil => cases e
      | cons a t => rw [List.getLast?_cons_cons]; exact e

theorem charData_append {t s t' s' : Str} (h : CharData t s) (h' : CharData t' s') (hr : t.getLast? ≠ some '\r')
    (hb : t.getLast? ≠ some ']') : CharData (t ++ t') (s ++ s') := by
  refine ⟨text_append h.1 h'.1 hr, ?_⟩
  rintro ⟨a, b, e⟩
  rw [List.append_assoc] at e
  rcases List.append_eq_append_iff.1 e with ⟨c, e1, e2⟩ | ⟨c, e1, e2⟩
  · exact h'.2 ⟨c, b, by rw [e2, List.append_assoc]⟩
  · cases c with
    | nil => exact h'.2 ⟨[], b, by simpa using e2.symm⟩
    | cons c1 c =>
      cases c with
      | nil =>
        simp only [List.cons_append, List.nil_append, List.cons.injEq] at e2
        rw [e1, ← e2.1] at hb
        simp at hb
      | cons c2 c =>
        cases c with
        | nil =>
          simp only [List.cons_append, List.nil_append, List.cons.injEq] at e2
          rw [e1, ← e2.2.1] at hb
          simp at hb
        | cons c3 c =>
          simp only [List.cons_append, List.nil_append, List.cons.injEq] at e2
          refine h.2 ⟨a, c, ?_⟩
          rw [e1, ← e2.1, ← e2.2.1, ← e2.2.2.1]; simp

/-- The same text and the same elements. -/
def SameKids (k k' : List Xml) : Prop := textIn ([], k) = textIn ([], k') ∧ ∀ n, named n k = named n k'

theorem sameKids_cons (x : Xml) {k k' : List Xml} (h : SameKids k k') : SameKids (x :: k) (x :: k') := by
  constructor
  · have := h.1
    cases x <;> simp_all [textIn]
  · intro n
    have := h.2 n
    cases x with
    | text s => exact this
    | elem m as ks => rw [ConfigProofs.named_elem, ConfigProofs.named_elem, this]

theorem content_join {N : XmlNames} {a : Str} {k₁ : List Xml} (h : Spec.XmlText.Content N a k₁) {b : Str} {k₂ : List Xml}
    (h2 : Spec.XmlText.Content N b k₂) (hr : a.getLast? ≠ some '\r') (hb : a.getLast? ≠ some ']') :
    ∃ k, Spec.XmlText.Content N (a ++ b) k ∧ SameKids k (k₁ ++ k₂) := by
  have down : ∀ (t r : Str) (c : Char), (t ++ r).getLast? ≠ some c → r.getLast? ≠ some c := by
    intro t r c h e
    refine h ?_
    rw [List.getLast?_append, e]; rfl
  revert hr hb
  refine Spec.XmlText.Content.rec (N := N) (motive_1 := fun _ _ _ => True)
    (motive_2 := fun a k₁ _ => a.getLast? ≠ some '\r' → a.getLast? ≠ some ']' →
      ∃ k, Spec.XmlText.Content N (a ++ b) k ∧ SameKids k (k₁ ++ k₂)) ?_ ?_ ?_ ?_ ?_ ?_ ?_ h
  · intros; trivial
  · intros; trivial
  · exact fun _ _ => ⟨k₂, h2, rfl, fun _ => rfl⟩
  · intro t s r kids ht hne hr hc ih h1 h3
    rcases hr with rfl | ⟨q, rfl⟩
    · rw [content_nil hc]
      rw [List.append_nil] at h1 h3 ⊢
      have tail : (b = [] ∨ ∃ q, b = '<' :: q) → ∃ k, Spec.XmlText.Content N (t ++ b) k ∧ SameKids k ([.text s] ++ k₂) :=
        fun hb => ⟨_, .text ht hne hb h2, rfl, fun _ => rfl⟩
      cases h2 with
      | nil => exact tail (Or.inl rfl)
      | @text t' s' r' kids' ht' hne' hr' h' =>
        refine ⟨.text (s ++ s') :: kids', ?_, ?_, fun _ => rfl⟩
        · rw [← List.append_assoc]
          exact .text (charData_append ht ht' h1 h3) (by simp [hne]) hr' h'
        · simp [textIn]
      | cdata ht' h' => obtain ⟨x, rfl, -⟩ := ht'; exact tail (Or.inr ⟨_, rfl⟩)
      | misc ht' h' => obtain ⟨q, rfl⟩ := misc_begins ht'; exact tail (Or.inr ⟨_, rfl⟩)
      | element ht' h' => cases ht' <;> exact tail (Or.inr ⟨_, rfl⟩)
    · obtain ⟨k, hk, hs⟩ := ih (down _ _ _ h1) (down _ _ _ h3)
      refine ⟨.text s :: k, ?_, sameKids_cons _ hs⟩
      rw [List.append_assoc]
      exact .text ht hne (Or.inr ⟨_, rfl⟩) hk
  · intro t s r kids ht hc ih h1 h3
    obtain ⟨k, hk, hs⟩ := ih (down _ _ _ h1) (down _ _ _ h3)
    refine ⟨.text s :: k, ?_, sameKids_cons _ hs⟩
    rw [List.append_assoc]
    exact .cdata ht hk
  · intro t r kids ht hc ih h1 h3
    obtain ⟨k, hk, hs⟩ := ih (down _ _ _ h1) (down _ _ _ h3)
    refine ⟨k, ?_, hs⟩
    rw [List.append_assoc]
    exact .misc ht hk
  · intro t r x kids ht hc _ ih h1 h3
    obtain ⟨k, hk, hs⟩ := ih (down _ _ _ h1) (down _ _ _ h3)
    refine ⟨x :: k, ?_, sameKids_cons _ hs⟩
    rw [List.append_assoc]
    exact .element ht hk

theorem content_put {N : XmlNames} {a m b : Str} {k₁ k₂ : List Xml} (h1 : Spec.XmlText.Content N a k₁) (hm : Misc N m)
    (h2 : Spec.XmlText.Content N b k₂) : Spec.XmlText.Content N (a ++ m ++ b) (k₁ ++ k₂) := by
  obtain ⟨q, e⟩ := misc_begins hm
  rw [List.append_assoc]
  exact content_append h1 (Or.inr ⟨q ++ b, by rw [e]; rfl⟩) (.misc hm h2)

theorem around_element {N : XmlNames} {pre post : Str} {g : List Xml → Xml} (h : Around N pre post g) {c : Str} {k : List Xml}
    (hc : Spec.XmlText.Content N c k) : Element N (pre ++ c ++ post) (g k) := by
  induction h with
  | here ht hl hw =>
    have := Element.full ht hl hc hw
    simpa [List.append_assoc] using this
  | deeper ht hl hw ha hb h ih =>
    have hi := Spec.XmlText.Content.element ih hb
    have := Element.full ht hl (content_append ha (Or.inr (by obtain ⟨q, e⟩ := element_begins ih; exact ⟨_, by rw [e]; rfl⟩)) hi) hw
    simpa [List.append_assoc] using this

/-- The same to a depth, but for where text is cut. -/
def Same : Nat → Body → Body → Prop
  | 0, b, b' => b.1 = b'.1 ∧ textIn b = textIn b'
  | d + 1, b, b' => b.1 = b'.1 ∧ textIn b = textIn b' ∧ ∀ n, List.Forall₂ (Same d) (named n b.2) (named n b'.2)

theorem same_refl (d : Nat) (b : Body) : Same d b b := by
  induction d generalizing b with
  | zero => exact ⟨rfl, rfl⟩
  | succ d ih => exact ⟨rfl, rfl, fun n => List.forall₂_same.2 fun b _ => ih b⟩

theorem same_symm {d : Nat} {b b' : Body} (h : Same d b b') : Same d b' b := by
  induction d generalizing b b' with
  | zero => exact ⟨h.1.symm, h.2.symm⟩
  | succ d ih =>
    refine ⟨h.1.symm, h.2.1.symm, fun n => ?_⟩
    have := h.2.2 n
    generalize named n b.2 = l, named n b'.2 = l' at this
    induction this with
    | nil => exact .nil
    | cons h _ ih' => exact .cons (ih h) ih'

theorem same_head {d : Nat} {b b' : Body} (h : Same d b b') : b.1 = b'.1 ∧ textIn b = textIn b' := by
  cases d with
  | zero => exact h
  | succ d => exact ⟨h.1, h.2.1⟩

/-- The trees are the same for the same children. -/
theorem around_same {N : XmlNames} {pre post : Str} {g : List Xml → Xml} (h : Around N pre post g) {k k' : List Xml} (hk : SameKids k k') :
    ∃ l as f f', g k = .elem l as f ∧ g k' = .elem l as f' ∧ ∀ d, Same d (as, f) (as, f') := by
  induction h with
  | here ht hl hw =>
    refine ⟨_, _, k, k', rfl, rfl, fun d => ?_⟩
    have e : ∀ as, textIn (as, k) = textIn (as, k') := fun as => hk.1
    cases d with
    | zero => exact ⟨rfl, e _⟩
    | succ d => exact ⟨rfl, e _, fun n => by rw [show named n k = named n k' from hk.2 n]; exact List.forall₂_same.2 fun b _ => same_refl d b⟩
  | @deeper _ _ l _ _ _ _ _ as k₁ k₂ g ht hl hw ha hb h ih =>
    obtain ⟨l', as', f, f', e, e', hs⟩ := ih
    refine ⟨_, _, _, _, rfl, rfl, fun d => ?_⟩
    have ht : textIn (as, k₁ ++ g k :: k₂) = textIn (as, k₁ ++ g k' :: k₂) := by
      rw [e, e']; simp [textIn]
    cases d with
    | zero => exact ⟨rfl, ht⟩
    | succ d =>
      refine ⟨rfl, ht, fun n => ?_⟩
      simp only
      rw [ConfigProofs.named_append, ConfigProofs.named_append, e, e', ConfigProofs.named_elem, ConfigProofs.named_elem]
      refine List.rel_append (List.forall₂_same.2 fun b _ => same_refl d b) ?_
      split
      · exact .cons (hs d) (List.forall₂_same.2 fun b _ => same_refl d b)
      · exact List.forall₂_same.2 fun b _ => same_refl d b

/-! ### configurations -/

theorem same_attrs {d : Nat} {l l' : List Body} (h : List.Forall₂ (Same d) l l') : l.flatMap (·.1) = l'.flatMap (·.1) := by
  induction h with
  | nil => rfl
  | cons h _ ih => rw [List.flatMap_cons, List.flatMap_cons, ih, (same_head h).1]

theorem same_texts {d : Nat} {l l' : List Body} (h : List.Forall₂ (Same d) l l') : l.map textIn = l'.map textIn := by
  induction h with
  | nil => rfl
  | cons h _ ih => rw [List.map_cons, List.map_cons, ih, (same_head h).2]

theorem same_named {d : Nat} {l l' : List Body} (h : List.Forall₂ (Same (d + 1)) l l') (n : Str) :
    List.Forall₂ (Same d) (named n (l.flatMap (·.2))) (named n (l'.flatMap (·.2))) := by
  induction h with
  | nil => exact .nil
  | cons h _ ih =>
    rw [List.flatMap_cons, List.flatMap_cons, ConfigProofs.named_append, ConfigProofs.named_append]
    exact List.rel_append (h.2.2 n) ih

theorem same_nil {d : Nat} {l l' : List Body} (h : List.Forall₂ (Same d) l l') : l = [] ↔ l' = [] := by
  cases h <;> simp

theorem package_same {l l' : List Body} (h : List.Forall₂ (Same 1) l l') (p : Catkin.Package) (hp : PackageIs l p) : PackageIs l' p := by
  have a := same_attrs h
  have t := fun n => same_texts (same_named h n)
  have e := same_attrs (same_named h c!"maintainer")
  exact ⟨by rw [← a]; exact hp.format, by rw [← t]; exact hp.name, by rw [← t]; exact hp.version, by rw [← t]; exact hp.description,
    by rw [← t]; exact hp.maintainer, by rw [← e]; exact hp.email, by rw [← t]; exact hp.license, by rw [← t]; exact hp.buildtool,
    by rw [← t]; exact hp.depends⟩

theorem catkin_same {l l' : List Body} (h : List.Forall₂ (Same 2) l l') (k : Option Catkin.Package) (hp : CatkinIs l k) : CatkinIs l' k := by
  have n := same_named h c!"package"
  cases k with
  | none => exact (same_nil n).1 hp
  | some p => exact ⟨fun e => hp.1 ((same_nil n).2 e), package_same n p hp.2⟩

theorem forall₂_same {d : Nat} {α : Type} {R : Body → α → Prop} (hR : ∀ b b' a, Same d b b' → R b a → R b' a) {l l' : List Body} {as : List α}
    (h : List.Forall₂ (Same d) l l') (ha : List.Forall₂ R l as) : List.Forall₂ R l' as := by
  induction h generalizing as with
  | nil => exact ha
  | cons h _ ih =>
    cases ha with
    | cons h1 h2 => exact .cons (hR _ _ _ h h1) (ih h2)

theorem cpp_same {b b' : Body} (c : CppConfig.Config) (h : Same 3 b b') (hc : CppIs b c) : CppIs b' c := by
  refine ⟨by rw [← h.1]; exact hc.variant, forall₂_same ?_ (h.2.2 _) hc.includes, forall₂_same ?_ (h.2.2 _) hc.channels,
    hc.makefile.trans (not_congr (same_nil (h.2.2 _))), ?_⟩
  · intro b b' a hs hi
    have e := (same_head hs).1
    exact ⟨by rw [← e]; exact hi.src, by rw [← e]; exact hi.system⟩
  · intro b b' a hs hi
    have e := (same_head hs).1
    exact ⟨by rw [← e]; exact hi.name, by rw [← e]; exact hi.type⟩
  · have := hc.catkin
    cases hk : c.catkin with
    | none => rw [hk] at this; exact (same_nil (h.2.2 _)).1 this
    | some k => rw [hk] at this; exact ⟨fun e => this.1 ((same_nil (h.2.2 _)).2 e), catkin_same (h.2.2 _) k this.2⟩

theorem config_same {l : Str} {as : List (Str × Str)} {f f' : List Xml} {cfg : GenConfig} (h : Same 4 (as, f) (as, f'))
    (hc : ConfigIs (.elem l as f) cfg) : ConfigIs (.elem l as f') cfg := by
  obtain ⟨as, ks, e, g1, g2⟩ := hc
  cases e
  exact ⟨_, _, rfl, forall₂_same (fun _ _ c => cpp_same c) (h.2.2 _) g1, by rw [g2]; exact congrArg last (same_texts (h.2.2 _))⟩

/-- A comment or the like in a document makes no difference to the configuration. -/
theorem comment_same {N : XmlNames} {p pre post r : Str} {g : List Xml → Xml} (hp : Prolog N p) (h : Around N pre post g) {a m b : Str}
    {k₁ k₂ : List Xml} (h1 : Spec.XmlText.Content N a k₁) (hm : Misc N m) (h2 : Spec.XmlText.Content N b k₂) (hr : a.getLast? ≠ some '\r')
    (hb : a.getLast? ≠ some ']') (cfg : GenConfig) :
    Says N (p ++ (pre ++ (a ++ m ++ b) ++ post) ++ r) cfg ↔ Says N (p ++ (pre ++ (a ++ b) ++ post) ++ r) cfg := by
  obtain ⟨k, hk, hs⟩ := content_join h1 h2 hr hb
  have d1 : Document N (p ++ (pre ++ (a ++ m ++ b) ++ post) ++ r) (g (k₁ ++ k₂)) :=
    ⟨p, _, r, rfl, hp, around_element h (content_put h1 hm h2)⟩
  have d2 : Document N (p ++ (pre ++ (a ++ b) ++ post) ++ r) (g k) := ⟨p, _, r, rfl, hp, around_element h hk⟩
  obtain ⟨l, as, f, f', e, e', hd⟩ := around_same h hs
  constructor
  · rintro ⟨x, hx, hc⟩
    rw [XmlProofs.document_unique hx d1, e'] at hc
    exact ⟨_, d2, by rw [e]; exact config_same (same_symm (hd 4)) hc⟩
  · rintro ⟨x, hx, hc⟩
    rw [XmlProofs.document_unique hx d2, e] at hc
    exact ⟨_, d1, by rw [e']; exact config_same (hd 4) hc⟩

end Rtcg.ConfigSay
