import Verif.Spec.Component4
import Verif.Props.Amp4Body
import Verif.Props.KMatrix
import Mathlib.Tactic.NormNum
/-!
# C78: a four-body amplitude uses each component as it was constructed, and shares only interchangeable ones
-/
set_option autoImplicit false
namespace GooFit
open Spec

/-! ### Constructors and device functions -/

@[simp] theorem toU_natCast (n : Nat) : toU (n : ℝ) = n := Nat.floor_natCast n

theorem ff_read (f : FormFactor) : ffOfNum (ffNum f) = f := by cases f <;> rfl
theorem focus_read (f : FocusMod) : focusOfNum (focusNum f) = f := by cases f <;> rfl

/-- The function that goes with a class. -/
def lsFnOf : LsClass → LsFn
  | .RBW => .BW_DP4 | .SBW => .SBW | .LASS => .lass | .NonRes => .NONRES_DP | .One => .LS_ONE | .Flatte => .Flatte
  | .Bugg => .bugg_MINT | .Bugg3 => .bugg_MINT3 | .FOCUS => .FOCUS | .GLASS => .glass3 | .kMatrix => .kMatrix
  | .GSpline => .Spline

theorem built_fn (junk : Nat → Nat → ℝ) (h : Nat → ℝ) (c : LsNew) (o : LsObj) (hb : lsBuild junk h c = some o) :
    o.fn = lsFnOf o.cls := by
  cases c <;> simp only [lsBuild] at hb
  case glass => split at hb <;> simp at hb; subst hb; rfl
  case kMatrix => split_ifs at hb; simp only [Option.some.injEq] at hb; subst hb; rfl
  case gspline =>
    split_ifs at hb
    obtain ⟨curv, -, hc⟩ := Option.map_eq_some_iff.1 hb
    subst hc; rfl
  all_goals simp only [Option.some.injEq] at hb; subst hb; rfl

theorem built_pair (junk : Nat → Nat → ℝ) (h : Nat → ℝ) (c : LsNew) (o : LsObj) (hb : lsBuild junk h c = some o) :
    o.consts[0]? = some ((args c).pair : ℝ) := by
  cases c <;> simp only [lsBuild] at hb
  case glass => split at hb <;> simp at hb; subst hb; rfl
  case kMatrix => split_ifs at hb; simp only [Option.some.injEq] at hb; subst hb; rfl
  case gspline =>
    split_ifs at hb
    obtain ⟨curv, -, hc⟩ := Option.map_eq_some_iff.1 hb
    subst hc; rfl
  all_goals simp only [Option.some.injEq] at hb; subst hb; rfl

/-- **C78 (comparison).** Two constructed line shapes compare equal exactly if they are the same in every respect: class,
function, name, members, variables and constants. -/
theorem C78_equal (junk junk' : Nat → Nat → ℝ) (h h' : Nat → ℝ) (c c' : LsNew) (o o' : LsObj)
    (hb : lsBuild junk h c = some o) (hb' : lsBuild junk' h' c' = some o') : lsEq o o' = true ↔ o = o' := by
  have h1 := built_fn junk h c o hb
  have h2 := built_fn junk' h' c' o' hb'
  cases o; cases o'
  simp only at h1 h2
  subst h1 h2
  simp only [lsEq, Bool.and_eq_true, decide_eq_true_eq, LsObj.mk.injEq]
  constructor
  · rintro ⟨a, ⟨⟨⟨⟨b, c⟩, d⟩, e⟩, f⟩, g, i⟩
    exact ⟨a, b, c, d, e, f, g, i, by rw [a]⟩
  · rintro ⟨a, b, c, d, e, f, g, i, -⟩
    exact ⟨a, ⟨⟨⟨⟨b, c⟩, d⟩, e⟩, f⟩, g, i⟩

theorem sfEq_iff (a b : SfObj) : sfEq a b = true ↔ a.name = b.name ∧ a.kind = b.kind ∧ a.p0 = b.p0 ∧ a.p1 = b.p1 ∧ a.p2 = b.p2
    ∧ a.p3 = b.p3 ∧ a.consts = b.consts := by
  simp only [sfEq, Bool.and_eq_true, decide_eq_true_eq]
  tauto

/-- **C78 (comparison of spin factors).** Two constructed spin factors compare equal exactly if the constructor calls were the
same. -/
theorem C78_spin_equal (s s' : SfNew) : sfEq (sfBuild s) (sfBuild s') = true ↔ s = s' := by
  cases s; cases s'
  simp only [sfEq_iff, sfBuild, SfNew.mk.injEq, List.cons.injEq, Nat.cast_inj, and_true]
  tauto

theorem kmatrix_params (h : Nat → ℝ) (sA0 sA s0prod s0scatt : Nat) (betaR betaI fprodR fprodI fscat poles : List Nat) :
    ([sA0, sA, s0prod, s0scatt]
        ++ (List.range 5).map (fun i => fscat.getD i 0)
        ++ (List.range 5).flatMap (fun i => [betaR.getD i 0, betaI.getD i 0])
        ++ (List.range 5).flatMap (fun i => [fprodR.getD i 0, fprodI.getD i 0])
        ++ (List.range 30).map (fun i => poles.getD i 0)).map h
      = kArgs (kModelOf h sA0 sA s0prod s0scatt betaR betaI fprodR fprodI fscat poles) := rfl

/-- **C78 (the function)** (what is missing: the line shape with a spline, see C79).  What the device function of a constructed
line shape computes from its parameters and constants is the function of its class applied to the arguments of the
constructor call, at the values the variables have now, whatever they were at construction. -/
theorem C78_function_partial (junk : Nat → Nat → ℝ) (h0 : Nat → ℝ) (c : LsNew) (o : LsObj) (hb : lsBuild junk h0 c = some o)
    (hs : ¬ IsSpline c) (h : Nat → ℝ) (M m1 m2 : ℝ) :
    lsDevice o.fn (o.params.map h) o.consts M m1 m2 = lineShapeAt c h M m1 m2 := by
  cases c <;> simp only [lsBuild] at hb
  case gspline => exact absurd trivial hs
  case glass a mass width vars =>
    split at hb
    · simp at hb
    · next hv =>
      simp only [Option.some.injEq] at hb
      subst hb
      obtain ⟨a0, a1, a2, a3, a4, rfl⟩ : ∃ a0 a1 a2 a3 a4, vars = [a0, a1, a2, a3, a4] := by
        match vars, hv with
        | [a0, a1, a2, a3, a4], _ => exact ⟨a0, a1, a2, a3, a4, rfl⟩
        | [], hv | [_], hv | [_, _], hv | [_, _, _], hv | [_, _, _, _], hv => simp at hv
        | _ :: _ :: _ :: _ :: _ :: _ :: _, hv => simp at hv
      simp [lsDevice, lsBase, lineShapeAt]
  case kMatrix =>
    split_ifs at hb
    simp only [Option.some.injEq] at hb
    subst hb
    simp only [lsDevice, lineShapeAt, kMatrixLineshape]
    rw [if_neg (by simp [lsBase])]
    simp only [lsBase]
    rw [kmatrix_params]
    split_ifs with hm
    · exact (C55_amplitude _ _).1 hm
    · exact (C55_amplitude _ _).2 hm
  case one => simp only [Option.some.injEq] at hb; subst hb; rfl
  case bugg => simp only [Option.some.injEq] at hb; subst hb; rfl
  case bugg3 => simp only [Option.some.injEq] at hb; subst hb; rfl
  all_goals
    simp only [Option.some.injEq] at hb
    subst hb
    simp [lsDevice, lsBase, lineShapeAt, ff_read, focus_read]
  rfl

/-- **C78 (line shapes at events)** (what is missing: as above).  The calculators evaluate a line shape at the mass of the pair
its constructor names. -/
theorem C78_line_shape_partial (junk : Nat → Nat → ℝ) (h0 : Nat → ℝ) (c : LsNew) (o : LsObj) (hb : lsBuild junk h0 c = some o)
    (hs : ¬ IsSpline c) (d : Decay4) (h : Nat → ℝ) (ev : Ev4) :
    lsCalc [d.M, d.m1, d.m2, d.m3, d.m4] o h ev = lineShape4 d c h ev := by
  unfold lsCalc lineShape4
  rw [built_pair junk h0 c o hb]
  simp only [List.getElem?_cons_zero, List.getElem?_cons_succ, bind, Option.bind, toU_natCast]
  cases lsMass (args c).pair ev.m12 ev.m34 ev.cos12 ev.cos34 ev.phi d.M d.m1 d.m2 d.m3 d.m4 with
  | none => rfl
  | some x => exact C78_function_partial junk h0 c o hb hs h x.m x.d1 x.d2

/-- **C78 (spin factors at events).** -/
theorem C78_spin_factor (d : Decay4) (s : SfNew) (ev : Ev4) :
    sfCalc [d.M, d.m1, d.m2, d.m3, d.m4] (sfBuild s) ev = spinFactor4 d s ev := by
  unfold sfCalc spinFactor4 sfDevice sfBuild
  simp [bind, Option.bind]

/-- **C78 (what a line shape depends on).** A line shape, the one with a spline included, depends on the variables it has
registered only: it need not be recomputed while these keep their values. -/
theorem C78_depends (masses : List ℝ) (o : LsObj) (h h' : Nat → ℝ) (hv : ∀ v ∈ o.params, h v = h' v) (ev : Ev4) :
    lsCalc masses o h ev = lsCalc masses o h' ev := by
  unfold lsCalc
  rw [List.map_congr_left hv]

/-! ### Sharing -/

theorem share_acc {α : Type} [DecidableEq α] (eq : α → α → Bool) (all l acc : List α)
    (h : ∀ a ∈ all, ∀ b ∈ all, eq a b = true ↔ a = b) (hl : ∀ a ∈ l, a ∈ all) (ha : ∀ a ∈ acc, a ∈ all) :
    l.foldl (addUniqueBy eq) acc = l.foldl addUnique acc := by
  induction l generalizing acc with
  | nil => rfl
  | cons x l ih =>
    have hx := hl x (by simp)
    have e : addUniqueBy eq acc x = addUnique acc x := by
      unfold addUniqueBy addUnique
      have : acc.any (fun y => eq x y) = true ↔ x ∈ acc := by
        rw [List.any_eq_true]
        constructor
        · rintro ⟨y, hy, he⟩
          rwa [(h x hx y (ha y hy)).1 he]
        · intro hm
          exact ⟨x, hm, (h x hx x hx).2 rfl⟩
      by_cases hm : x ∈ acc
      · rw [if_pos (this.2 hm), if_pos hm]
      · rw [if_neg (fun h' => hm (this.1 h')), if_neg hm]
    rw [List.foldl_cons, List.foldl_cons, e]
    refine ih _ (fun a h' => hl a (by simp [h'])) fun a h' => ?_
    unfold addUnique at h'
    split at h'
    · exact ha a h'
    · rcases List.mem_append.1 h' with h' | h'
      · exact ha a h'
      · rw [List.mem_singleton.1 h']; exact hx

theorem addUnique_all {α : Type} [DecidableEq α] (l acc : List α) (hn : acc.Nodup) :
    (∀ x, x ∈ l.foldl addUnique acc ↔ x ∈ acc ∨ x ∈ l) ∧ (l.foldl addUnique acc).Nodup := by
  induction l generalizing acc with
  | nil => exact ⟨fun x => by simp, hn⟩
  | cons y l ih =>
    have h2 : (addUnique acc y).Nodup := by
      unfold addUnique
      split
      · exact hn
      · next h => exact List.nodup_append.2 ⟨hn, by simp, by
          intro a ha b hb; rw [List.mem_singleton.1 hb]; rintro rfl; exact h ha⟩
    have h3 : ∀ x, x ∈ addUnique acc y ↔ x ∈ acc ∨ x = y := by
      intro x
      unfold addUnique
      split
      · next h => constructor
                  · exact Or.inl
                  · rintro (h' | rfl)
                    · exact h'
                    · exact h
      · simp
    obtain ⟨i1, i2⟩ := ih _ h2
    refine ⟨fun x => ?_, i2⟩
    rw [List.foldl_cons, i1, h3, List.mem_cons]
    tauto

/-- **C78 (sharing).** Of all the line shapes of a PDF, in the order of the amplitudes, the PDF stores every one once: no two
stored ones are interchangeable, every line shape finds itself, whichever amplitude it came from, and nothing else is
stored. -/
theorem C78_shared (junk : Nat → Nat → ℝ) (h0 : Nat → ℝ) (calls : List LsNew) (objs : List LsObj)
    (hb : List.Forall₂ (fun c o => lsBuild junk h0 c = some o) calls objs) :
    (∀ o ∈ objs, (objs.foldl (addUniqueBy lsEq) [])[indexBy lsEq (objs.foldl (addUniqueBy lsEq) []) o]? = some o)
    ∧ (∀ o ∈ objs.foldl (addUniqueBy lsEq) [], o ∈ objs)
    ∧ (objs.foldl (addUniqueBy lsEq) []).Pairwise (fun a b => lsEq a b = false) := by
  have hbuilt : ∀ o ∈ objs, ∃ c, lsBuild junk h0 c = some o := by
    intro o ho
    obtain ⟨i, hi, rfl⟩ := List.getElem_of_mem ho
    exact ⟨_, (List.forall₂_iff_get.1 hb).2 i (by rw [hb.length_eq]; exact hi) hi⟩
  have heq : ∀ a ∈ objs, ∀ b ∈ objs, lsEq a b = true ↔ a = b := by
    intro a ha b hb'
    obtain ⟨c, hc⟩ := hbuilt a ha
    obtain ⟨c', hc'⟩ := hbuilt b hb'
    exact C78_equal junk junk h0 h0 c c' a b hc hc'
  rw [share_acc lsEq objs objs [] heq (fun _ h => h) (by simp)]
  obtain ⟨h1, h2⟩ := addUnique_all objs ([] : List LsObj) List.nodup_nil
  have h1' : ∀ o, o ∈ objs.foldl addUnique [] ↔ o ∈ objs := by simpa using h1
  refine ⟨fun o ho => ?_, fun o ho => (h1' o).1 ho, ?_⟩
  · have hm := (h1' o).2 ho
    have hex : ∃ x ∈ objs.foldl addUnique [], lsEq o x = true := ⟨o, hm, (heq o ho o ho).2 rfl⟩
    have hlt := List.findIdx_lt_length_of_exists hex
    unfold indexBy
    rw [List.getElem?_eq_getElem hlt]
    have := List.findIdx_getElem (w := hlt)
    exact congrArg some ((heq o ho _ ((h1' _).1 (List.getElem_mem _))).1 this).symm
  · refine List.Pairwise.imp_of_mem ?_ h2
    intro a b ha hb' hne
    rw [Bool.eq_false_iff]
    exact fun he => hne ((heq a ((h1' a).1 ha) b ((h1' b).1 hb')).1 he)

/-- **C78 (sharing of spin factors).** -/
theorem C78_spin_shared (calls : List SfNew) :
    (∀ o ∈ calls.map sfBuild, ((calls.map sfBuild).foldl (addUniqueBy sfEq) [])[indexBy sfEq
        ((calls.map sfBuild).foldl (addUniqueBy sfEq) []) o]? = some o)
    ∧ (∀ o ∈ (calls.map sfBuild).foldl (addUniqueBy sfEq) [], o ∈ calls.map sfBuild)
    ∧ ((calls.map sfBuild).foldl (addUniqueBy sfEq) []).Pairwise (fun a b => sfEq a b = false) := by
  have heq : ∀ a ∈ calls.map sfBuild, ∀ b ∈ calls.map sfBuild, sfEq a b = true ↔ a = b := by
    intro a ha b hb
    obtain ⟨s, -, rfl⟩ := List.mem_map.1 ha
    obtain ⟨s', -, rfl⟩ := List.mem_map.1 hb
    rw [C78_spin_equal]
    constructor
    · rintro rfl; rfl
    · intro he
      refine (C78_spin_equal s s').1 ?_
      rw [← he]
      exact (C78_spin_equal s s).2 rfl
  generalize calls.map sfBuild = objs at heq ⊢
  rw [share_acc sfEq objs objs [] heq (fun _ h => h) (by simp)]
  obtain ⟨h1, h2⟩ := addUnique_all objs ([] : List SfObj) List.nodup_nil
  have h1' : ∀ o, o ∈ objs.foldl addUnique [] ↔ o ∈ objs := by simpa using h1
  refine ⟨fun o ho => ?_, fun o ho => (h1' o).1 ho, ?_⟩
  · have hm := (h1' o).2 ho
    have hex : ∃ x ∈ objs.foldl addUnique [], sfEq o x = true := ⟨o, hm, (heq o ho o ho).2 rfl⟩
    have hlt := List.findIdx_lt_length_of_exists hex
    unfold indexBy
    rw [List.getElem?_eq_getElem hlt]
    have := List.findIdx_getElem (w := hlt)
    exact congrArg some ((heq o ho _ ((h1' _).1 (List.getElem_mem _))).1 this).symm
  · refine List.Pairwise.imp_of_mem ?_ h2
    intro a b ha hb' hne
    rw [Bool.eq_false_iff]
    exact fun he => hne ((heq a ((h1' a).1 ha) b ((h1' b).1 hb')).1 he)

/-! ### The PDF -/

theorem mapM_forall2 {α β : Type} (f : α → Option β) (l : List α) (l' : List β) (h : l.mapM f = some l') :
    List.Forall₂ (fun a b => f a = some b) l l' := by
  induction l generalizing l' with
  | nil => simp only [List.mapM_nil, pure, Option.some.injEq] at h; subst h; exact .nil
  | cons a l ih =>
    simp only [List.mapM_cons, bind, Option.bind, pure] at h
    cases ha : f a with
    | none => rw [ha] at h; simp at h
    | some b =>
      rw [ha] at h
      cases hl : l.mapM f with
      | none => simp [hl] at h
      | some bs =>
        simp only [hl, Option.some.injEq] at h
        subst h
        exact .cons ha (ih bs hl)

theorem forall2_flatMap {α β α' β' : Type} (R : α → β → Prop) (S : α' → β' → Prop) (f : α → List α') (g : β → List β')
    (l : List α) (l' : List β) (h : List.Forall₂ R l l') (hR : ∀ a b, R a b → List.Forall₂ S (f a) (g b)) :
    List.Forall₂ S (l.flatMap f) (l'.flatMap g) := by
  induction h with
  | nil => exact .nil
  | cons h1 h2 ih =>
    rw [List.flatMap_cons, List.flatMap_cons]
    exact List.rel_append (hR _ _ h1) ih

theorem ampBuild_some (junk : Nat → Nat → ℝ) (h0 : Nat → ℝ) (a : AmpNew) (b : Amp4 LsObj SfObj)
    (hb : ampBuild junk h0 a = some b) :
    List.Forall₂ (fun c o => lsBuild junk h0 c = some o) a.ls b.ls ∧ b.sf = a.sf.map sfBuild ∧ b.nPerm = a.nPerm := by
  unfold ampBuild at hb
  obtain ⟨ls, h1, h2⟩ := Option.map_eq_some_iff.1 hb
  subst h2
  exact ⟨mapM_forall2 _ _ _ h1, rfl, rfl⟩

/-- **C78 (the model of C49 and C50 shares as the program does).** The lists of line shapes and spin factors of
`Verif.Model.Amp4Body`, which are made with equality, and the positions in them, are those made with the program's `==`. -/
theorem C78_stored (junk : Nat → Nat → ℝ) (h0 : Nat → ℝ) (amps : List AmpNew) (built : List (Amp4 LsObj SfObj))
    (hb : amps.mapM (ampBuild junk h0) = some built) :
    lineShapesOf built = (built.flatMap (·.ls)).foldl (addUniqueBy lsEq) []
    ∧ spinFactorsOf built = (built.flatMap (·.sf)).foldl (addUniqueBy sfEq) []
    ∧ (∀ o ∈ built.flatMap (·.ls), (lineShapesOf built).idxOf o = indexBy lsEq (lineShapesOf built) o)
    ∧ (∀ o ∈ built.flatMap (·.sf), (spinFactorsOf built).idxOf o = indexBy sfEq (spinFactorsOf built) o) := by
  have hf := mapM_forall2 _ _ _ hb
  have hls : ∀ o ∈ built.flatMap (·.ls), ∃ c, lsBuild junk h0 c = some o := by
    have h2 := forall2_flatMap _ (fun c o => lsBuild junk h0 c = some o) (·.ls) (·.ls) amps built hf
      (fun a b h => (ampBuild_some junk h0 a b h).1)
    intro o ho
    obtain ⟨i, hi, rfl⟩ := List.getElem_of_mem ho
    exact ⟨_, (List.forall₂_iff_get.1 h2).2 i (by rw [h2.length_eq]; exact hi) hi⟩
  have hsf : ∀ o ∈ built.flatMap (·.sf), ∃ s, sfBuild s = o := by
    intro o ho
    obtain ⟨b, hb1, hb2⟩ := List.mem_flatMap.1 ho
    obtain ⟨i, hi, rfl⟩ := List.getElem_of_mem hb1
    have := (ampBuild_some junk h0 _ _ ((List.forall₂_iff_get.1 hf).2 i (by rw [hf.length_eq]; exact hi) hi)).2.1
    simp only [List.get_eq_getElem] at this
    rw [this] at hb2
    obtain ⟨s, -, hs⟩ := List.mem_map.1 hb2
    exact ⟨s, hs⟩
  have e1 : ∀ a ∈ built.flatMap (·.ls), ∀ b ∈ built.flatMap (·.ls), lsEq a b = true ↔ a = b := by
    intro a ha b hb'
    obtain ⟨c, hc⟩ := hls a ha
    obtain ⟨c', hc'⟩ := hls b hb'
    exact C78_equal junk junk h0 h0 c c' a b hc hc'
  have e2 : ∀ a ∈ built.flatMap (·.sf), ∀ b ∈ built.flatMap (·.sf), sfEq a b = true ↔ a = b := by
    intro a ha b hb'
    obtain ⟨s, rfl⟩ := hsf a ha
    obtain ⟨s', rfl⟩ := hsf b hb'
    rw [C78_spin_equal]
    constructor
    · rintro rfl; rfl
    · intro he
      refine (C78_spin_equal s s').1 ?_
      rw [← he]
      exact (C78_spin_equal s s).2 rfl
  have hidx : ∀ {α : Type} [DecidableEq α] (eq : α → α → Bool) (all known : List α) (x : α),
      (∀ a ∈ all, ∀ b ∈ all, eq a b = true ↔ a = b) → x ∈ all → (∀ y ∈ known, y ∈ all) →
      known.idxOf x = indexBy eq known x := by
    intro α _ eq all known x he hx hk
    unfold indexBy List.idxOf
    induction known with
    | nil => rfl
    | cons y known ih =>
      rw [List.findIdx_cons, List.findIdx_cons, ih fun z hz => hk z (by simp [hz])]
      have : (y == x) = eq x y := by
        rw [Bool.eq_iff_iff, he x hx y (hk y (by simp)), beq_iff_eq]
        exact eq_comm
      rw [this]
  refine ⟨(share_acc lsEq _ _ [] e1 (fun _ h => h) (by simp)).symm, (share_acc sfEq _ _ [] e2 (fun _ h => h) (by simp)).symm,
    fun o ho => hidx lsEq _ _ o e1 ho fun y hy => ?_, fun o ho => hidx sfEq _ _ o e2 ho fun y hy => ?_⟩
  · simpa using ((addUnique_all _ [] List.nodup_nil).1 y).1 hy
  · simpa using ((addUnique_all _ [] List.nodup_nil).1 y).1 hy

theorem coef_get (amps : List AmpNew) (h : Nat → ℝ) (i : Nat) (hi : i < amps.length) :
    ((coefParams amps).map h).getD (2 * i) 0 = h amps[i].ar ∧ ((coefParams amps).map h).getD (2 * i + 1) 0 = h amps[i].ai := by
  induction amps generalizing i with
  | nil => simp at hi
  | cons a amps ih =>
    have e : coefParams (a :: amps) = a.ar :: a.ai :: coefParams amps := rfl
    rw [e]
    cases i with
    | zero => exact ⟨rfl, rfl⟩
    | succ i =>
      have := ih i (by simpa using hi)
      rw [show 2 * (i + 1) = 2 * i + 1 + 1 by ring]
      simpa using this

theorem terms_eq (junk : Nat → Nat → ℝ) (h0 : Nat → ℝ) (d : Decay4) (amps : List AmpNew) (built : List (Amp4 LsObj SfObj))
    (hb : amps.mapM (ampBuild junk h0) = some built) (hs : ∀ a ∈ amps, ∀ c ∈ a.ls, ¬ IsSpline c)
    (eff : (Nat → ℝ) → Ev4 → ℝ) (mc : List Ev4) (h : Nat → ℝ) (ev : Ev4) :
    let m := fourBodyPdf [d.M, d.m1, d.m2, d.m3, d.m4] amps built eff mc
    intensity4 (m.amps.zipIdx.map fun a =>
        (amplitude4 Real.sqrt a.1.nPerm (a.1.ls.map fun x => m.lineShape x h ev) (a.1.sf.map fun x => m.spinFactor x ev),
          m.coef h a.2)) = described d amps h ev := by
  intro m
  have hf := mapM_forall2 _ _ _ hb
  unfold described
  congr 1
  refine List.ext_getElem (by simp [m, fourBodyPdf, hf.length_eq]) fun i h1 h2 => ?_
  have hi : i < amps.length := by simpa using h2
  have hi' : i < built.length := by rw [← hf.length_eq]; exact hi
  have hab := (List.forall₂_iff_get.1 hf).2 i hi hi'
  simp only [List.get_eq_getElem] at hab
  obtain ⟨l1, l2, l3⟩ := ampBuild_some junk h0 _ _ hab
  obtain ⟨c1, c2⟩ := coef_get amps h i hi
  simp only [List.getElem_map, List.getElem_zipIdx, m, fourBodyPdf, zero_add]
  rw [l3, l2, c1, c2]
  have e1 : (built[i].ls.map fun x => toCx ((lsCalc [d.M, d.m1, d.m2, d.m3, d.m4] x h ev).getD 0))
      = amps[i].ls.map fun c => toCx ((lineShape4 d c h ev).getD 0) := by
    refine List.ext_getElem (by simp [l1.length_eq]) fun k k1 k2 => ?_
    simp only [List.getElem_map]
    have hk : k < amps[i].ls.length := by simpa using k2
    have hk' : k < built[i].ls.length := by simpa using k1
    have := (List.forall₂_iff_get.1 l1).2 k hk hk'
    simp only [List.get_eq_getElem] at this
    rw [C78_line_shape_partial junk h0 _ _ this (hs _ (List.getElem_mem hi) _ (List.getElem_mem hk)) d h ev]
  have e2 : ((amps[i].sf.map sfBuild).map fun x => (sfCalc [d.M, d.m1, d.m2, d.m3, d.m4] x ev).getD 0)
      = amps[i].sf.map fun s => (spinFactor4 d s ev).getD 0 := by
    rw [List.map_map]
    refine List.map_congr_left fun s _ => ?_
    simp only [Function.comp_apply, C78_spin_factor]
  rw [e1, e2]

theorem marks_honest (masses : List ℝ) (amps : List AmpNew) (built : List (Amp4 LsObj SfObj)) (eff : (Nat → ℝ) → Ev4 → ℝ)
    (mc : List Ev4) (q : Option (Nat → ℝ)) (ops : List (A4.Op LsObj (Nat → ℝ) Ev4)) (hm : MarksFrom q ops) :
    (fourBodyPdf masses amps built eff mc).HonestFrom q ops := by
  induction ops generalizing q with
  | nil => trivial
  | cons op ops ih =>
    cases op with
    | setData d => exact ih q hm
    | eval c p =>
      refine ⟨fun p0 hq x hx => ?_, ih _ hm.2⟩
      funext ev
      exact congrArg (fun z => toCx (Option.getD z 0)) (C78_depends masses x p p0 (hm.1 p0 hq x hx) ev)
    | generate d c p =>
      refine ⟨fun p0 hq x hx => ?_, ih _ hm.2⟩
      funext ev
      exact congrArg (fun z => toCx (Option.getD z 0)) (C78_depends masses x p p0 (hm.1 p0 hq x hx) ev)

/-- **C78 (the PDF)** (what is missing: splines, and the amplitudes C49 excludes, see `C49_violation_stale`).  The value of a
four-body PDF at an event, after any history in which the line shapes with changed variables are marked, is the intensity the
constructor calls describe, at the present values of the variables, times the efficiency. -/
theorem C78_value_partial (junk : Nat → Nat → ℝ) (h0 : Nat → ℝ) (d : Decay4) (amps : List AmpNew)
    (built : List (Amp4 LsObj SfObj)) (hb : amps.mapM (ampBuild junk h0) = some built)
    (hs : ∀ a ∈ amps, ∀ c ∈ a.ls, ¬ IsSpline c) (eff : (Nat → ℝ) → Ev4 → ℝ) (mc : List Ev4)
    (hal : ∀ (i : Nat) (a : Amp4 LsObj SfObj), built[i]? = some a →
      (fourBodyPdf [d.M, d.m1, d.m2, d.m3, d.m4] amps built eff mc).Aligned i a)
    (ops : List (A4.Op LsObj (Nat → ℝ) Ev4)) (c : LsObj → Bool) (h : Nat → ℝ) (hm : MarksFrom none (ops ++ [.eval c h]))
    (s : A4State ℝ Ev4)
    (hr : (fourBodyPdf [d.M, d.m1, d.m2, d.m3, d.m4] amps built eff mc).run Real.sqrt (ops ++ [.eval c h]) = some s) (e : Nat) :
    (fourBodyPdf [d.M, d.m1, d.m2, d.m3, d.m4] amps built eff mc).value h s e
      = ((A4.currentData [] ops)[e]?).map fun ev => described d amps h ev * eff h ev := by
  rw [C49_values_partial Real.sqrt _ hal ops c h (marks_honest _ _ _ _ _ _ _ hm) s hr e]
  congr 1
  funext ev
  rw [← terms_eq junk h0 d amps built hb hs eff mc h ev]
  rfl

/-- **C78 (the PDF, new data)** (what is missing: splines).  Without any condition on the amplitudes, the same holds at the
first evaluation of new data. -/
theorem C78_new_data_partial (junk : Nat → Nat → ℝ) (h0 : Nat → ℝ) (d : Decay4) (amps : List AmpNew)
    (built : List (Amp4 LsObj SfObj)) (hb : amps.mapM (ampBuild junk h0) = some built)
    (hs : ∀ a ∈ amps, ∀ c ∈ a.ls, ¬ IsSpline c) (eff : (Nat → ℝ) → Ev4 → ℝ) (mc : List Ev4)
    (ops : List (A4.Op LsObj (Nat → ℝ) Ev4)) (data : List Ev4) (c : LsObj → Bool) (h : Nat → ℝ)
    (hm : MarksFrom none (ops ++ [.setData data, .eval c h])) (s : A4State ℝ Ev4)
    (hr : (fourBodyPdf [d.M, d.m1, d.m2, d.m3, d.m4] amps built eff mc).run Real.sqrt (ops ++ [.setData data, .eval c h]) = some s)
    (e : Nat) :
    (fourBodyPdf [d.M, d.m1, d.m2, d.m3, d.m4] amps built eff mc).value h s e
      = (data[e]?).map fun ev => described d amps h ev * eff h ev := by
  rw [C49_new_data_partial Real.sqrt _ ops data c h (marks_honest _ _ _ _ _ _ _ hm) s hr e]
  congr 1
  funext ev
  rw [← terms_eq junk h0 d amps built hb hs eff mc h ev]
  rfl

/-- **C78 (the normalisation)** (what is missing: splines).  It is the average of the described intensity over the normalisation
events. -/
theorem C78_normalization_partial (junk : Nat → Nat → ℝ) (h0 : Nat → ℝ) (d : Decay4) (amps : List AmpNew)
    (built : List (Amp4 LsObj SfObj)) (hb : amps.mapM (ampBuild junk h0) = some built)
    (hs : ∀ a ∈ amps, ∀ c ∈ a.ls, ¬ IsSpline c) (eff : (Nat → ℝ) → Ev4 → ℝ) (mc : List Ev4)
    (ops : List (A4.Op LsObj (Nat → ℝ) Ev4)) (hg : ∀ op ∈ ops, ∀ d c p, op ≠ .generate d c p) (c : LsObj → Bool) (h : Nat → ℝ)
    (hm : MarksFrom none (ops ++ [.eval c h])) (s0 s : A4State ℝ Ev4)
    (hr : (fourBodyPdf [d.M, d.m1, d.m2, d.m3, d.m4] amps built eff mc).run Real.sqrt ops = some s0) (r : ℝ)
    (hn : (fourBodyPdf [d.M, d.m1, d.m2, d.m3, d.m4] amps built eff mc).normalize Real.sqrt c h s0 = some (r, s)) :
    r = (mc.map (described d amps h)).sum / (mc.length : ℝ) := by
  rw [C50_normalization_partial Real.sqrt _ ops hg c h (marks_honest _ _ _ _ _ _ _ hm) s0 s hr r hn]
  congr 2
  refine List.map_congr_left fun ev _ => ?_
  rw [← terms_eq junk h0 d amps built hb hs eff mc h ev]

/-! ### What is not as the signatures say -/

/-- **C78 (violation).** Some classes do not use variables their constructors ask for: these variables are not parameters of
the PDF, and objects made with different ones are the same. -/
theorem C78_violation_ignored (junk junk' : Nat → Nat → ℝ) (h h' : Nat → ℝ) (a : LsArgs) (mass width mass' width' : Nat)
    (mod : FocusMod) :
    lsBuild junk h (.nonRes a mass width) = lsBuild junk' h' (.nonRes a mass' width')
    ∧ lsBuild junk h (.one a mass width) = lsBuild junk' h' (.one a mass' width')
    ∧ lsBuild junk h (.bugg a mass width) = lsBuild junk' h' (.bugg a mass' width')
    ∧ lsBuild junk h (.bugg3 a mass width) = lsBuild junk' h' (.bugg3 a mass' width')
    ∧ lsBuild junk h (.focus a mod mass width) = lsBuild junk' h' (.focus a mod mass' width')
    ∧ lsBuild junk h (.flatte a mass width) = lsBuild junk' h' (.flatte a mass width') :=
  ⟨rfl, rfl, rfl, rfl, rfl, rfl⟩

/-- Four momenta: a pair moving to the right and a pair moving to the left. -/
def twoPairs : Fin 4 → LV ℝ := ![⟨1, 0, 0, 2⟩, ⟨1, 0, 0, 2⟩, ⟨-1, 0, 0, 2⟩, ⟨-1, 0, 0, 2⟩]

/-- **C78 (violation).** The number called the mass of the mother (`mD0`) in the constructor of a spin factor is a radius: the
form factor of the same four momenta changes with it, and the constructor without this argument takes the mass of the D⁰, in
GeV, for a radius in 1/GeV. -/
theorem C78_violation_radius (name : String) :
    (∀ mD0 : ℝ, sfDevice .ff12_34_L1 (sfBuild ⟨name, .ff12_34_L1, mD0, 0, 1, 2, 3⟩).consts twoPairs
      = some √(1 / (1 + 4 * mD0 ^ 2)))
    ∧ sfDevice .ff12_34_L1 (sfBuild (sfNewDefault name .ff12_34_L1 0 1 2 3)).consts twoPairs
      = some √(1 / (1 + 4 * 1.86484 ^ 2))
    ∧ √(1 / (1 + 4 * (1.86484 : ℝ) ^ 2)) < √(1 / (1 + 4 * (0 : ℝ) ^ 2)) := by
  have h1 : ∀ mD0 : ℝ, sfDevice .ff12_34_L1 (sfBuild ⟨name, .ff12_34_L1, mD0, 0, 1, 2, 3⟩).consts twoPairs
      = some √(1 / (1 + 4 * mD0 ^ 2)) := by
    intro mD0
    simp only [sfDevice, sfBuild, bind, Option.bind, List.getElem?_cons_zero, List.getElem?_cons_succ, toU_natCast]
    rw [dif_pos (by norm_num)]
    simp only [pure, spinFactorVal, ff1234L1]
    have : ffQ2 (twoPairs ⟨0, by norm_num⟩ + twoPairs ⟨1, by norm_num⟩ + twoPairs ⟨2, by norm_num⟩ + twoPairs ⟨3, by norm_num⟩).mag2
        (twoPairs ⟨0, by norm_num⟩ + twoPairs ⟨1, by norm_num⟩).mag2 (twoPairs ⟨2, by norm_num⟩ + twoPairs ⟨3, by norm_num⟩).mag2 = 4 := by
      change ffQ2 (LV.mag2 ((⟨1, 0, 0, 2⟩ : LV ℝ) + ⟨1, 0, 0, 2⟩ + ⟨-1, 0, 0, 2⟩ + ⟨-1, 0, 0, 2⟩))
        (LV.mag2 ((⟨1, 0, 0, 2⟩ : LV ℝ) + ⟨1, 0, 0, 2⟩)) (LV.mag2 ((⟨-1, 0, 0, 2⟩ : LV ℝ) + ⟨-1, 0, 0, 2⟩)) = 4
      have a1 : ((⟨1, 0, 0, 2⟩ : LV ℝ) + ⟨1, 0, 0, 2⟩) = ⟨2, 0, 0, 4⟩ := by
        show LV.add _ _ = _
        unfold LV.add; norm_num
      have a2 : ((⟨-1, 0, 0, 2⟩ : LV ℝ) + ⟨-1, 0, 0, 2⟩) = ⟨-2, 0, 0, 4⟩ := by
        show LV.add _ _ = _
        unfold LV.add; norm_num
      have a3 : ((⟨2, 0, 0, 4⟩ : LV ℝ) + ⟨-1, 0, 0, 2⟩) = ⟨1, 0, 0, 6⟩ := by
        show LV.add _ _ = _
        unfold LV.add; norm_num
      have a4 : ((⟨1, 0, 0, 6⟩ : LV ℝ) + ⟨-1, 0, 0, 2⟩) = ⟨0, 0, 0, 8⟩ := by
        show LV.add _ _ = _
        unfold LV.add; norm_num
      rw [a1, a2, a3, a4]
      unfold ffQ2 LV.mag2 LV.mink
      norm_num
    rw [this]
    congr 4
    ring
  refine ⟨h1, h1 _, ?_⟩
  exact Real.sqrt_lt_sqrt (by positivity) (by norm_num)

/-! ### The hypotheses are met -/

/-- A Breit-Wigner of the first pair with variables 0 and 1. -/
def exRbw : LsNew := .rbw ⟨"rho", 1, 0, .BL2, 1.5⟩ 0 1
/-- The same constructor call with another width. -/
def exRbw' : LsNew := .rbw ⟨"rho", 1, 0, .BL2, 1.5⟩ 0 2
/-- A GLASS with its five variables. -/
def exGlass : LsNew := .glass ⟨"kappa", 0, 1, .One, 1.5⟩ 0 1 [3, 4, 5, 6, 7]
/-- An amplitude. -/
def exAmp : AmpNew := ⟨8, 9, [exRbw], [⟨"one", .one, 0, 0, 1, 2, 3⟩], 1⟩

example (junk : Nat → Nat → ℝ) (h : Nat → ℝ) :
    (lsBuild junk h exRbw).isSome ∧ (lsBuild junk h exGlass).isSome ∧ ¬ IsSpline exRbw ∧ ¬ IsSpline exGlass
    ∧ lsBuild junk h exRbw ≠ lsBuild junk h exRbw' := by
  refine ⟨rfl, by simp [exGlass, lsBuild], id, id, ?_⟩
  simp [exRbw, exRbw', lsBuild, lsBase]

/-- A line shape used in two amplitudes is stored once, one with another width variable separately. -/
example (junk : Nat → Nat → ℝ) (h : Nat → ℝ) (o o' : LsObj) (ho : lsBuild junk h exRbw = some o)
    (ho' : lsBuild junk h exRbw' = some o') :
    [o, o', o].foldl (addUniqueBy lsEq) [] = [o, o'] := by
  have e1 := C78_equal junk junk h h exRbw exRbw o o ho ho
  have e2 : lsEq o' o = false := by
    rw [Bool.eq_false_iff, ne_eq, C78_equal junk junk h h exRbw' exRbw o' o ho' ho]
    rintro rfl
    rw [← ho'] at ho
    simp [exRbw, exRbw', lsBuild, lsBase] at ho
  simp [addUniqueBy, e1.2 rfl, e2]

/-- A PDF of one amplitude, data, and a first evaluation: all hypotheses of `C78_value_partial` hold. -/
example (junk : Nat → Nat → ℝ) (h0 h : Nat → ℝ) (d : Decay4) (eff : (Nat → ℝ) → Ev4 → ℝ) (mc data : List Ev4) :
    ∃ built, [exAmp].mapM (ampBuild junk h0) = some built
      ∧ (∀ a ∈ [exAmp], ∀ c ∈ a.ls, ¬ IsSpline c)
      ∧ (∀ (i : Nat) (a : Amp4 LsObj SfObj), built[i]? = some a →
          (fourBodyPdf [d.M, d.m1, d.m2, d.m3, d.m4] [exAmp] built eff mc).Aligned i a)
      ∧ MarksFrom none ([.setData data] ++ [.eval (fun _ => true) h])
      ∧ ∃ s, (fourBodyPdf [d.M, d.m1, d.m2, d.m3, d.m4] [exAmp] built eff mc).run Real.sqrt
          ([.setData data] ++ [.eval (fun _ => true) h]) = some s := by
  obtain ⟨o, ho⟩ : ∃ o, lsBuild junk h0 exRbw = some o := ⟨_, rfl⟩
  have hb : [exAmp].mapM (ampBuild junk h0) = some [⟨[o], exAmp.sf.map sfBuild, 1⟩] := by
    simp [exAmp, ampBuild, ho]
  have hls : lineShapesOf [(⟨[o], exAmp.sf.map sfBuild, 1⟩ : Amp4 LsObj SfObj)] = [o] := by
    simp [lineShapesOf, addUnique]
  refine ⟨_, hb, ?_, ?_, ?_, ?_⟩
  · intro a ha c hc
    rw [List.mem_singleton.1 ha] at hc
    rw [List.mem_singleton.1 hc]
    exact id
  · intro i a ha
    right
    intro x hx
    match i, ha with
    | 0, ha =>
      simp only [List.getElem?_cons_zero, Option.some.injEq] at ha
      subst ha
      rw [List.mem_singleton.1 hx]
      show List.idxOf o (lineShapesOf _) = 0
      rw [show (fourBodyPdf [d.M, d.m1, d.m2, d.m3, d.m4] [exAmp] [⟨[o], exAmp.sf.map sfBuild, 1⟩] eff mc).amps
        = [⟨[o], exAmp.sf.map sfBuild, 1⟩] from rfl, hls]
      simp
    | _ + 1, ha => simp at ha
  · exact ⟨fun _ h' => absurd h' (by simp), trivial⟩
  · have := C49_no_overflow Real.sqrt (fourBodyPdf [d.M, d.m1, d.m2, d.m3, d.m4] [exAmp]
      [⟨[o], exAmp.sf.map sfBuild, 1⟩] eff mc) (by
        show (lineShapesOf [(⟨[o], exAmp.sf.map sfBuild, 1⟩ : Amp4 LsObj SfObj)]).length ≤ 1
        rw [hls]; rfl) ([.setData data] ++ [.eval (fun _ => true) h])
    exact Option.ne_none_iff_exists'.1 this

end GooFit
