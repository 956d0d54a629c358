import Verif.Proofs.XmlWrite

/-
What makes no difference to a configuration, and what no document can say.
-/

namespace Rtcg.ConfigChange

open Rtcg Rtcg.Spec Rtcg.Spec.ConfigXml Rtcg.ConfigProofs

theorem named_shuffle {known : List Str} {k k' : List Xml} (h : Shuffle known k k') {n : Str} (hn : n ∈ known) : named n k = named n k' := by
  cases h with
  | @put a b x hx =>
    rw [named_append, named_append]
    cases x with
    | text s => rfl
    | elem m as ks => rw [named_elem, if_neg]; rintro rfl; exact hx m rfl hn
  | @swap a b x y hxy =>
    rw [named_append, named_append]
    congr 1
    cases x with
    | text s => cases y <;> rfl
    | elem m as ks =>
      cases y with
      | text s => rfl
      | elem m' as' ks' =>
        simp only [named_elem]
        by_cases h1 : m = n
        · by_cases h2 : m' = n
          · exact absurd (by simp only [nameOf]; rw [h1, h2]) hxy
          · simp [h2]
        · simp [h1]

theorem values_shuffle {known : List Str} {k k' : List (Str × Str)} (h : AttrShuffle known k k') {n : Str} (hn : n ∈ known) :
    values n k = values n k' := by
  cases h with
  | @put a b m v hx =>
    rw [values_append, values_append, values_cons, if_neg]
    rintro rfl; exact hx hn
  | @swap a b m v m' w hxy =>
    rw [values_append, values_append]
    congr 1
    simp only [values_cons]
    by_cases h1 : m = n
    · have h2 : m' ≠ n := fun h2 => hxy (h1.trans h2.symm)
      simp [h2]
    · simp [h1]

theorem named_other {n m : Str} {a b : List Xml} {x y : Body} (h : m ≠ n) :
    named n (a ++ .elem m x.1 x.2 :: b) = named n (a ++ .elem m y.1 y.2 :: b) := by
  rw [named_append, named_append, named_elem, named_elem, if_neg h, if_neg h]

theorem named_same {n : Str} {a b : List Xml} {x : Body} :
    named n (a ++ .elem n x.1 x.2 :: b) = named n a ++ x :: named n b := by
  rw [named_append, named_elem, if_pos rfl]

theorem forall₂_replace {α : Type} {R : Body → α → Prop} {x y : Body} (h : ∀ c, R x c ↔ R y c) (l₁ l₂ : List Body) (cs : List α) :
    List.Forall₂ R (l₁ ++ x :: l₂) cs ↔ List.Forall₂ R (l₁ ++ y :: l₂) cs := by
  induction l₁ generalizing cs with
  | nil =>
    cases cs with
    | nil => constructor <;> intro h <;> cases h
    | cons c cs => simp only [List.nil_append, List.forall₂_cons, h]
  | cons b l₁ ih =>
    cases cs with
    | nil => constructor <;> intro h <;> cases h
    | cons c cs => simp only [List.cons_append, List.forall₂_cons, ih]

theorem include_change {x y : Body} (h : Change [c!"src", c!"system"] [] (fun _ _ _ => False) x y) (i : CppConfig.Include) :
    IncludeIs x i ↔ IncludeIs y i := by
  have key : values c!"src" x.1 = values c!"src" y.1 ∧ values c!"system" x.1 = values c!"system" y.1 := by
    cases h with
    | attrs h => exact ⟨values_shuffle h (by decide), values_shuffle h (by decide)⟩
    | kids h => exact ⟨rfl, rfl⟩
    | inner hn h => exact h.elim
  constructor
  · rintro ⟨h1, h2⟩; exact ⟨by rw [← key.1]; exact h1, by rw [← key.2]; exact h2⟩
  · rintro ⟨h1, h2⟩; exact ⟨by rw [key.1]; exact h1, by rw [key.2]; exact h2⟩

theorem channel_change {x y : Body} (h : Change [c!"name", c!"type"] [] (fun _ _ _ => False) x y) (i : CppConfig.Channel) :
    ChannelIs x i ↔ ChannelIs y i := by
  have key : values c!"name" x.1 = values c!"name" y.1 ∧ values c!"type" x.1 = values c!"type" y.1 := by
    cases h with
    | attrs h => exact ⟨values_shuffle h (by decide), values_shuffle h (by decide)⟩
    | kids h => exact ⟨rfl, rfl⟩
    | inner hn h => exact h.elim
  constructor
  · rintro ⟨h1, h2⟩; exact ⟨by rw [← key.1]; exact h1, by rw [← key.2]; exact h2⟩
  · rintro ⟨h1, h2⟩; exact ⟨by rw [key.1]; exact h1, by rw [key.2]; exact h2⟩

theorem text_change {known : List Str} {x y : Body} (h : TextChange known x y) :
    textIn x = textIn y ∧ ∀ n ∈ known, values n x.1 = values n y.1 := by
  cases h with
  | attrs h => exact ⟨rfl, fun n hn => values_shuffle h hn⟩
  | put => refine ⟨?_, fun _ _ => rfl⟩; simp [textIn]
  | cut => refine ⟨?_, fun _ _ => rfl⟩; simp [textIn]

/-- What counts of the children of a package. -/
theorem package_kids {x y : Body} (h : PackageChange x y) :
    values c!"format" x.1 = values c!"format" y.1 ∧
    (∀ n ∈ [c!"name", c!"version", c!"description", c!"maintainer", c!"license", c!"buildtool_depend", c!"depend"],
      (named n x.2).map textIn = (named n y.2).map textIn) ∧
    values c!"email" ((named c!"maintainer" x.2).flatMap (·.1)) = values c!"email" ((named c!"maintainer" y.2).flatMap (·.1)) := by
  cases h with
  | attrs h => exact ⟨values_shuffle h (by decide), fun _ _ => rfl, rfl⟩
  | kids h =>
    exact ⟨rfl, fun n hn => by rw [named_shuffle h hn], by rw [named_shuffle h (n := c!"maintainer") (by decide)]⟩
  | @inner as a b m x y hm h =>
    refine ⟨rfl, fun n hn => ?_, ?_⟩
    · by_cases hmn : m = n
      · subst hmn
        simp only
        rw [named_same, named_same]
        simp only [List.map_append, List.map_cons, (text_change h).1]
      · simp only
        rw [named_other (y := y) hmn]
    · by_cases hmn : m = c!"maintainer"
      · subst hmn
        simp only
        rw [named_same, named_same]
        simp only [List.flatMap_append, List.flatMap_cons, values_append,
          (text_change h).2 c!"email" (by simp)]
      · simp only
        rw [named_other (y := y) hmn]

theorem package_change {x y : Body} (h : PackageChange x y) (l₁ l₂ : List Body) (p : Catkin.Package) :
    PackageIs (l₁ ++ x :: l₂) p ↔ PackageIs (l₁ ++ y :: l₂) p := by
  obtain ⟨h1, h2, h3⟩ := package_kids h
  have k1 : values c!"format" ((l₁ ++ x :: l₂).flatMap (·.1)) = values c!"format" ((l₁ ++ y :: l₂).flatMap (·.1)) := by
    simp only [List.flatMap_append, List.flatMap_cons, values_append, h1]
  have k2 : ∀ n ∈ [c!"name", c!"version", c!"description", c!"maintainer", c!"license", c!"buildtool_depend", c!"depend"],
      (named n ((l₁ ++ x :: l₂).flatMap (·.2))).map textIn = (named n ((l₁ ++ y :: l₂).flatMap (·.2))).map textIn := by
    intro n hn
    simp only [List.flatMap_append, List.flatMap_cons, named_append, List.map_append, h2 n hn]
  have k3 : values c!"email" ((named c!"maintainer" ((l₁ ++ x :: l₂).flatMap (·.2))).flatMap (·.1)) =
      values c!"email" ((named c!"maintainer" ((l₁ ++ y :: l₂).flatMap (·.2))).flatMap (·.1)) := by
    simp only [List.flatMap_append, List.flatMap_cons, named_append, values_append, h3]
  constructor
  · rintro ⟨g0, g1, g2, g3, g4, g5, g6, g7, g8⟩
    rw [k2 _ (by decide)] at g1 g2 g3 g4 g6 g7 g8
    rw [k1] at g0
    rw [k3] at g5
    exact ⟨g0, g1, g2, g3, g4, g5, g6, g7, g8⟩
  · rintro ⟨g0, g1, g2, g3, g4, g5, g6, g7, g8⟩
    rw [← k2 _ (by decide)] at g1 g2 g3 g4 g6 g7 g8
    rw [← k1] at g0
    rw [← k3] at g5
    exact ⟨g0, g1, g2, g3, g4, g5, g6, g7, g8⟩

theorem catkin_change {x y : Body} (h : CatkinChange x y) (l₁ l₂ : List Body) (k : Option Catkin.Package) :
    CatkinIs (l₁ ++ x :: l₂) k ↔ CatkinIs (l₁ ++ y :: l₂) k := by
  unfold CatkinIs
  have e : ∀ z : Body, named c!"package" ((l₁ ++ z :: l₂).flatMap (·.2)) =
      named c!"package" (l₁.flatMap (·.2)) ++ named c!"package" z.2 ++ named c!"package" (l₂.flatMap (·.2)) := by
    intro z; simp only [List.flatMap_append, List.flatMap_cons, named_append, List.append_assoc]
  rw [e, e]
  cases h with
  | attrs h => exact Iff.rfl
  | kids h => simp only; rw [named_shuffle h (n := c!"package") (by decide)]
  | @inner as a b m x y hm h =>
    obtain rfl := List.mem_singleton.1 hm
    simp only
    rw [named_same, named_same]
    cases k with
    | none => simp
    | some p =>
      have := package_change h (named c!"package" (l₁.flatMap (·.2)) ++ named c!"package" a) (named c!"package" b ++ named c!"package" (l₂.flatMap (·.2))) p
      simp only [List.append_assoc, List.cons_append] at this ⊢
      simp [this]

theorem cpp_change {x y : Body} (h : CppChange x y) (c : CppConfig.Config) : CppIs x c ↔ CppIs y c := by
  cases h with
  | @attrs as as' ks h =>
    have := values_shuffle h (n := c!"variant") (by decide)
    constructor
    · rintro ⟨g0, g1, g2, g3, g4⟩; exact ⟨by simp only [← this]; exact g0, g1, g2, g3, g4⟩
    · rintro ⟨g0, g1, g2, g3, g4⟩; exact ⟨by simp only [this]; exact g0, g1, g2, g3, g4⟩
  | @kids as ks ks' h =>
    have k1 := named_shuffle h (n := c!"include") (by decide)
    have k2 := named_shuffle h (n := c!"channel") (by decide)
    have k3 := named_shuffle h (n := c!"makefile") (by decide)
    have k4 := named_shuffle h (n := c!"catkin") (by decide)
    constructor
    · rintro ⟨g0, g1, g2, g3, g4⟩
      simp only [k1, k2, k3, k4] at g1 g2 g3 g4
      exact ⟨g0, g1, g2, g3, g4⟩
    · rintro ⟨g0, g1, g2, g3, g4⟩
      simp only [← k1, ← k2, ← k3, ← k4] at g1 g2 g3 g4
      exact ⟨g0, g1, g2, g3, g4⟩
  | @inner as a b m x y hm h =>
    have k1 : ∀ cs, List.Forall₂ IncludeIs (named c!"include" (a ++ .elem m x.1 x.2 :: b)) cs ↔
        List.Forall₂ IncludeIs (named c!"include" (a ++ .elem m y.1 y.2 :: b)) cs := by
      intro cs
      by_cases hmn : m = c!"include"
      · subst hmn
        rw [named_same, named_same]
        exact forall₂_replace (include_change h) _ _ _
      · rw [named_other (y := y) hmn]
    have k2 : ∀ cs, List.Forall₂ ChannelIs (named c!"channel" (a ++ .elem m x.1 x.2 :: b)) cs ↔
        List.Forall₂ ChannelIs (named c!"channel" (a ++ .elem m y.1 y.2 :: b)) cs := by
      intro cs
      by_cases hmn : m = c!"channel"
      · subst hmn
        rw [named_same, named_same]
        exact forall₂_replace (channel_change h) _ _ _
      · rw [named_other (y := y) hmn]
    have k3 : named c!"makefile" (a ++ .elem m x.1 x.2 :: b) = [] ↔ named c!"makefile" (a ++ .elem m y.1 y.2 :: b) = [] := by
      by_cases hmn : m = c!"makefile"
      · subst hmn
        rw [named_same, named_same]
        simp
      · rw [named_other (y := y) hmn]
    have k4 : (named c!"catkin" (a ++ .elem m x.1 x.2 :: b) = [] ↔ named c!"catkin" (a ++ .elem m y.1 y.2 :: b) = []) ∧
        ∀ k, CatkinIs (named c!"catkin" (a ++ .elem m x.1 x.2 :: b)) k ↔ CatkinIs (named c!"catkin" (a ++ .elem m y.1 y.2 :: b)) k := by
      by_cases hmn : m = c!"catkin"
      · subst hmn
        rw [named_same, named_same]
        exact ⟨by simp, fun k => catkin_change h _ _ k⟩
      · rw [named_other (y := y) hmn]; exact ⟨Iff.rfl, fun _ => Iff.rfl⟩
    constructor
    · rintro ⟨g0, g1, g2, g3, g4⟩
      refine ⟨g0, (k1 _).1 g1, (k2 _).1 g2, g3.trans (not_congr k3), ?_⟩
      cases hk : c.catkin with
      | none => rw [hk] at g4; exact k4.1.1 g4
      | some k => rw [hk] at g4; exact ⟨fun h => g4.1 (k4.1.2 h), (k4.2 k).1 g4.2⟩
    · rintro ⟨g0, g1, g2, g3, g4⟩
      refine ⟨g0, (k1 _).2 g1, (k2 _).2 g2, g3.trans (not_congr k3.symm), ?_⟩
      cases hk : c.catkin with
      | none => rw [hk] at g4; exact k4.1.2 g4
      | some k => rw [hk] at g4; exact ⟨fun h => g4.1 (k4.1.1 h), (k4.2 k).2 g4.2⟩

theorem config_change {x y : Body} (h : ConfigChange x y) (r : Str) (cfg : GenConfig) :
    ConfigIs (.elem r x.1 x.2) cfg ↔ ConfigIs (.elem r y.1 y.2) cfg := by
  have key : (∀ cs, List.Forall₂ CppIs (named c!"cpp" x.2) cs ↔ List.Forall₂ CppIs (named c!"cpp" y.2) cs) ∧
      (named c!"directory" x.2).map textIn = (named c!"directory" y.2).map textIn := by
    cases h with
    | attrs h => exact ⟨fun _ => Iff.rfl, rfl⟩
    | kids h =>
      simp only
      rw [named_shuffle h (n := c!"cpp") (by decide), named_shuffle h (n := c!"directory") (by decide)]
      exact ⟨fun _ => Iff.rfl, rfl⟩
    | @inner as a b m x y hm h =>
      simp only
      by_cases hmn : m = c!"cpp"
      · subst hmn
        rw [named_same, named_same, named_other (y := y) (m := c!"cpp") (by decide)]
        exact ⟨fun cs => forall₂_replace (cpp_change h) _ _ _, rfl⟩
      · simp only [if_neg hmn] at h
        rw [named_other (y := y) hmn]
        refine ⟨fun _ => Iff.rfl, ?_⟩
        by_cases hd : m = c!"directory"
        · subst hd
          rw [named_same, named_same]
          simp only [List.map_append, List.map_cons, (text_change h).1]
        · rw [named_other (y := y) hd]
  constructor
  · rintro ⟨as, ks, h, g1, g2⟩
    cases h
    exact ⟨_, _, rfl, (key.1 _).1 g1, by rw [← key.2]; exact g2⟩
  · rintro ⟨as, ks, h, g1, g2⟩
    cases h
    exact ⟨_, _, rfl, (key.1 _).2 g1, by rw [key.2]; exact g2⟩

end Rtcg.ConfigChange
