import Verif.Spec.SmartVector
import Mathlib.Data.List.Forall2
import Mathlib.Data.List.Induction
/-!
# C32: device copies equal host arrays
-/
set_option autoImplicit false
namespace GooFit
open Spec
variable {T : Type}

/-- The loop copies every entry that compares different. -/
theorem smartLoop_eq (ne : T → T → Bool) (xs pl l : List T) (hl : l.length = xs.length) :
    smartLoop ne xs pl.length (pl ++ l) (pl ++ l)
      = some (pl ++ (l.zip xs).map (fun p => if ne p.1 p.2 then p.2 else p.1),
          pl ++ (l.zip xs).map (fun p => if ne p.1 p.2 then p.2 else p.1)) := by
  induction xs generalizing pl l with
  | nil =>
    obtain rfl := List.eq_nil_of_length_eq_zero hl
    simp [smartLoop]
  | cons x xs ih =>
    obtain ⟨y, l, rfl⟩ : ∃ y l', l = y :: l' := by
      cases l with
      | nil => simp at hl
      | cons y l' => exact ⟨y, l', rfl⟩
    have hl' : l.length = xs.length := by simpa using hl
    rw [smartLoop]
    have hget : (pl ++ y :: l)[pl.length]? = some y := by simp
    rw [hget]
    simp only [bind, Option.bind]
    by_cases hne : ne y x = true
    · rw [if_pos hne, if_pos (by simp)]
      have e : (pl ++ y :: l).set pl.length x = (pl ++ [x]) ++ l := by
        rw [List.set_append_right _ _ (Nat.le_refl _), Nat.sub_self, List.set_cons_zero]; simp
      rw [e]
      have := ih (pl ++ [x]) l hl'
      rw [List.length_append, List.length_singleton] at this
      rw [this]
      simp [hne]
    · rw [if_neg hne]
      have := ih (pl ++ [y]) l hl'
      rw [List.length_append, List.length_singleton] at this
      rw [show pl ++ y :: l = (pl ++ [y]) ++ l by simp, this]
      simp [hne]

/-- Between synchronisations: if the device was not given up, its memory is what was last copied. -/
def SvInv (ops : List (SvOp T)) (s : SvGpu T) : Prop :=
  deviceCleared ops = false → s.dev = s.loc ∧ (s.ptr = true ∨ s.loc = [])

theorem deviceCleared_snoc (ops : List (SvOp T)) (op : SvOp T) :
    deviceCleared (ops ++ [op]) = match op with | .clearDevice => true | .sync => false | _ => deviceCleared ops := by
  simp only [deviceCleared, List.foldl_append, List.foldl_cons, List.foldl_nil]
  cases op <;> rfl

theorem run_snoc {σ : Type} {step : σ → SvOp T → Option σ} {s0 : σ} (ops : List (SvOp T)) (op : SvOp T) :
    (ops ++ [op]).foldlM step s0 = (ops.foldlM step s0).bind (step · op) := by
  rw [List.foldlM_append]
  simp only [bind, List.foldlM_cons, List.foldlM_nil, pure]
  cases ops.foldlM step s0 with
  | none => rfl
  | some s =>
    simp only [Option.bind]
    cases step s op <;> rfl

theorem hostArray_snoc (ops : List (SvOp T)) (op : SvOp T) (l : List T) :
    hostArray (ops ++ [op]) l = (hostArray ops l).bind (hostArray [op]) := by
  induction ops generalizing l with
  | nil => simp [hostArray]
  | cons o ops ih =>
    rw [List.cons_append]
    cases o <;> simp only [hostArray, ih]
    split <;> simp

/-- Every history in which the host array is used properly and which does not use a vector whose device
memory was given up: it runs, the host part is the ordinary vector, and the invariant holds. -/
theorem sv_inv (ne : T → T → Bool) (ops : List (SvOp T)) (l : List T) (hh : hostArray ops [] = some l)
    (hsafe : ∀ pre post, ops = pre ++ .smartSync :: post → deviceCleared pre = false) :
    ∃ s, SvGpu.run ne ops = some s ∧ s.host = l ∧ SvInv ops s := by
  induction ops using List.reverseRecOn generalizing l with
  | nil =>
    simp only [hostArray, Option.some.injEq] at hh
    exact ⟨SvGpu.fresh, rfl, hh ▸ rfl, fun _ => ⟨rfl, Or.inr rfl⟩⟩
  | append_singleton ops op ih =>
    rw [hostArray_snoc] at hh
    cases hl : hostArray ops [] with
    | none => rw [hl] at hh; exact absurd hh (by simp)
    | some l0 =>
      rw [hl] at hh
      simp only [Option.bind] at hh
      obtain ⟨s, hs, hhost, hinv⟩ := ih l0 hl (fun pre post he => hsafe pre (post ++ [op]) (by rw [he]; simp))
      unfold SvGpu.run at hs ⊢
      rw [run_snoc, hs]
      simp only [Option.bind]
      unfold SvInv at hinv ⊢
      rw [deviceCleared_snoc]
      cases op with
      | push x r =>
        simp only [hostArray, Option.some.injEq] at hh
        exact ⟨_, rfl, by simp only [← hh, hhost], hinv⟩
      | write i x =>
        simp only [hostArray] at hh
        split at hh
        · rename_i hi
          simp only [Option.some.injEq] at hh
          refine ⟨{ s with host := s.host.set i x }, ?_, by simp only [← hh, hhost], hinv⟩
          rw [SvGpu.step, if_pos (by rw [hhost]; exact hi)]
        · exact absurd hh (by simp)
      | clear =>
        simp only [hostArray, Option.some.injEq] at hh
        exact ⟨_, rfl, by simp only [← hh], hinv⟩
      | sync =>
        simp only [hostArray, Option.some.injEq] at hh
        exact ⟨_, rfl, by simp only [← hh, ← hhost, SvGpu.sync], fun _ => ⟨rfl, Or.inl rfl⟩⟩
      | clearDevice =>
        simp only [hostArray, Option.some.injEq] at hh
        exact ⟨_, rfl, by simp only [← hh, hhost], fun h => absurd h (by simp)⟩
      | smartSync =>
        simp only [hostArray, Option.some.injEq] at hh
        have hnc : deviceCleared ops = false := hsafe ops [] (by simp)
        obtain ⟨hd, hp⟩ := hinv hnc
        rw [SvGpu.step]
        by_cases hlen : s.loc.length ≠ s.host.length
        · rw [if_pos hlen]
          exact ⟨_, rfl, by simp only [← hh, ← hhost, SvGpu.sync], fun _ => ⟨rfl, Or.inl rfl⟩⟩
        · rw [if_neg hlen]
          push Not at hlen
          have := smartLoop_eq ne s.host [] s.loc hlen
          simp only [List.length_nil, List.nil_append] at this
          rw [hd, this]
          simp only [bind, Option.bind, pure]
          refine ⟨_, rfl, by simp only [← hh, hhost], fun _ => ⟨rfl, ?_⟩⟩
          rcases hp with hp | hp
          · exact Or.inl hp
          · right; simp [hp]

/-- **C32, partial.** After `sync`, and after `smart_sync` unless the device memory was given up before it,
a kernel reads the host array, entry by entry the same up to the type's own notion of equality.
Missing: `smart_sync` on a vector whose device memory was given up, see the violations. -/
theorem C32_device_equals_host_partial (ne : T → T → Bool) (ops : List (SvOp T)) (op : SvOp T) (hop : op = .sync ∨ op = .smartSync)
    (l : List T) (hh : hostArray (ops ++ [op]) [] = some l)
    (hsafe : ∀ pre post, ops ++ [op] = pre ++ .smartSync :: post → deviceCleared pre = false) (hne : l ≠ []) :
    ∃ s d, SvGpu.run ne (ops ++ [op]) = some s ∧ s.device = some d ∧ List.Forall₂ (Indistinct ne) d l := by
  rw [hostArray_snoc] at hh
  cases hl : hostArray ops [] with
  | none => rw [hl] at hh; exact absurd hh (by simp)
  | some l0 =>
    rw [hl] at hh
    have hll : l0 = l := by
      rcases hop with rfl | rfl <;> simpa [Option.bind, hostArray] using hh
    subst hll
    obtain ⟨s, hs, hhost, hinv⟩ := sv_inv ne ops l0 hl (fun pre post he => hsafe pre (post ++ [op]) (by rw [he]; simp))
    have hrefl : List.Forall₂ (Indistinct ne) l0 l0 := List.forall₂_same.mpr fun x _ => Or.inl rfl
    have hsync : s.sync.device = some l0 := by simp [SvGpu.device, SvGpu.sync, hhost]
    unfold SvGpu.run at hs ⊢
    rw [run_snoc, hs]
    simp only [Option.bind]
    rcases hop with rfl | rfl
    · exact ⟨_, _, rfl, hsync, hrefl⟩
    · obtain ⟨hd, hp⟩ := hinv (hsafe ops [] (by simp))
      rw [SvGpu.step]
      by_cases hlen : s.loc.length ≠ s.host.length
      · rw [if_pos hlen]
        exact ⟨_, _, rfl, hsync, hrefl⟩
      · rw [if_neg hlen]
        push Not at hlen
        have := smartLoop_eq ne s.host [] s.loc hlen
        simp only [List.length_nil, List.nil_append] at this
        rw [hd, this]
        simp only [bind, Option.bind, pure]
        have hptr : s.ptr = true := by
          rcases hp with hp | hp
          · exact hp
          · exfalso
            rw [hp, List.length_nil] at hlen
            exact hne (hhost ▸ List.eq_nil_of_length_eq_zero hlen.symm)
        refine ⟨_, (s.loc.zip s.host).map (fun p => if ne p.1 p.2 = true then p.2 else p.1), rfl,
          by simp only [SvGpu.device, hptr, if_true], ?_⟩
        rw [← hhost]
        rw [List.forall₂_iff_get]
        refine ⟨by simp [hlen], ?_⟩
        intro i h1 h2
        simp only [List.get_eq_getElem, List.getElem_map, List.getElem_zip]
        by_cases hc : ne (s.loc[i]'(by omega)) (s.host[i]'h2) = true
        · rw [if_pos hc]; exact Or.inl rfl
        · rw [if_neg hc]; exact Or.inr (by simpa using hc)

/-- For element types whose `!=` tells all values apart the copies are identical. -/
theorem C32_identical_partial [DecidableEq T] (ops : List (SvOp T)) (op : SvOp T) (hop : op = .sync ∨ op = .smartSync)
    (l : List T) (hh : hostArray (ops ++ [op]) [] = some l)
    (hsafe : ∀ pre post, ops ++ [op] = pre ++ .smartSync :: post → deviceCleared pre = false) (hne : l ≠ []) :
    ∃ s, SvGpu.run (fun a b => decide (a ≠ b)) (ops ++ [op]) = some s ∧ s.device = some l := by
  obtain ⟨s, d, h1, h2, h3⟩ := C32_device_equals_host_partial (fun a b => decide (a ≠ b)) ops op hop l hh hsafe hne
  refine ⟨s, h1, ?_⟩
  rw [h2]
  congr 1
  refine List.forall₂_eq_eq_eq ▸ h3.imp ?_
  intro a b hab
  rcases hab with hab | hab
  · exact hab
  · simpa using hab

/-- **C32 on the CPU**: for every history ending in a synchronisation, and then as long as the array does
not grow, a kernel reads exactly the host array, also after writes. -/
theorem C32_cpu (ops writes : List (SvOp T)) (op : SvOp T) (hop : op = .sync ∨ op = .smartSync)
    (hw : ∀ w ∈ writes, ∃ i x, w = .write i x) (l : List T) (hh : hostArray (ops ++ [op] ++ writes) [] = some l) :
    ∃ s : SvCpu T, SvCpu.run (ops ++ [op] ++ writes) = some s ∧ s.device = some l := by
  have hrun : ∀ (os : List (SvOp T)) (l : List T), hostArray os [] = some l →
      ∃ s : SvCpu T, SvCpu.run os = some s ∧ s.host = l := by
    intro os
    induction os using List.reverseRecOn with
    | nil => intro l h; simp only [hostArray, Option.some.injEq] at h; exact ⟨SvCpu.fresh, rfl, h ▸ rfl⟩
    | append_singleton os o ih =>
      intro l h
      rw [hostArray_snoc] at h
      cases h0 : hostArray os [] with
      | none => rw [h0] at h; exact absurd h (by simp)
      | some l0 =>
        rw [h0] at h
        obtain ⟨s, hs, hhost⟩ := ih l0 h0
        unfold SvCpu.run at hs ⊢
        rw [run_snoc, hs]
        simp only [Option.bind] at h ⊢
        cases o with
        | write i x =>
          simp only [hostArray] at h
          split at h
          · rename_i hi
            simp only [Option.some.injEq] at h
            refine ⟨{ s with host := s.host.set i x }, by rw [SvCpu.step, if_pos (by rw [hhost]; exact hi)], ?_⟩
            simp only [← h, hhost]
          · exact absurd h (by simp)
        | push x r => simp only [hostArray, Option.some.injEq] at h; exact ⟨_, rfl, by simp only [← h, hhost]⟩
        | clear => simp only [hostArray, Option.some.injEq] at h; exact ⟨_, rfl, by simp only [← h]⟩
        | sync => simp only [hostArray, Option.some.injEq] at h; exact ⟨_, rfl, by simp only [← h, hhost]⟩
        | smartSync => simp only [hostArray, Option.some.injEq] at h; exact ⟨_, rfl, by simp only [← h, hhost]⟩
        | clearDevice => simp only [hostArray, Option.some.injEq] at h; exact ⟨_, rfl, by simp only [← h, hhost]⟩
  induction writes using List.reverseRecOn generalizing l with
  | nil =>
    rw [List.append_nil] at hh ⊢
    obtain ⟨s, hs, hhost⟩ := hrun _ l hh
    refine ⟨s, hs, ?_⟩
    unfold SvCpu.run at hs
    rw [run_snoc] at hs
    cases h0 : ops.foldlM SvCpu.step (SvCpu.fresh : SvCpu T) with
    | none => rw [h0] at hs; exact absurd hs (by simp)
    | some s0 =>
      rw [h0] at hs
      rcases hop with rfl | rfl <;>
      · simp only [Option.bind, SvCpu.step, Option.some.injEq] at hs
        subst hs
        simp only [SvCpu.device, if_true]
        rw [← hhost]
  | append_singleton ws w ih =>
    obtain ⟨i, x, rfl⟩ := hw w (by simp)
    rw [← List.append_assoc, hostArray_snoc] at hh
    cases h0 : hostArray (ops ++ [op] ++ ws) [] with
    | none => rw [h0] at hh; exact absurd hh (by simp)
    | some l0 =>
      rw [h0] at hh
      simp only [Option.bind, hostArray] at hh
      split at hh
      · rename_i hi
        simp only [Option.some.injEq] at hh
        obtain ⟨s, hs, hd⟩ := ih (fun w hw' => hw w (by simp [hw'])) l0 h0
        obtain ⟨s', hs', hhost⟩ := hrun _ l0 h0
        rw [hs] at hs'
        obtain rfl := Option.some.inj hs'
        unfold SvCpu.run at hs ⊢
        rw [← List.append_assoc, run_snoc, hs]
        refine ⟨{ s with host := s.host.set i x }, ?_, ?_⟩
        · simp only [Option.bind, SvCpu.step]
          rw [if_pos (by rw [hhost]; exact hi)]
        · unfold SvCpu.device at hd ⊢
          simp only
          by_cases hp : s.ptr = some s.storage
          · rw [if_pos hp, hhost, hh]
          · rw [if_neg hp] at hd; exact absurd hd (by simp)
      · exact absurd hh (by simp)

/-- A history in which the partial theorems apply: growth, a synchronisation, writes, a smart one. -/
example : hostArray ([.push 1 false, .push 2 true, .sync, .write 0 5] ++ [.smartSync]) [] = some [5, 2]
    ∧ (SvGpu.run (fun a b : Nat => decide (a ≠ b)) [.push 1 false, .push 2 true, .sync, .write 0 5, .smartSync]).bind
        SvGpu.device = some [5, 2]
    ∧ deviceCleared [SvOp.push 1 false, .push 2 true, .sync, .write 0 5] = false := by decide

/-- **C32 (violated by the code).** Destroying any PDF gives up the device memory of the global arrays, but
the record of what is on the device is kept.  The next `smart_sync` of an unchanged array copies nothing
and the device reads through a dangling pointer; of a changed array, it writes beyond the end of the empty
device vector. -/
theorem C32_violation_cleared :
    (∃ s, SvGpu.run (fun a b : Nat => decide (a ≠ b)) [.push 1 false, .sync, .clearDevice, .smartSync] = some s
      ∧ s.host = [1] ∧ s.device = none)
    ∧ SvGpu.run (fun a b : Nat => decide (a ≠ b)) [.push 1 false, .sync, .clearDevice, .write 0 2, .smartSync] = none := by
  refine ⟨⟨_, rfl, rfl, rfl⟩, by decide⟩

/-- **C32 (violated by the code).** On the CPU the pointer stored by `sync` is left dangling when the array
grows and moves (noted in the code as a warning). -/
theorem C32_violation_cpu_growth :
    ∃ s : SvCpu Nat, SvCpu.run [.push 1 false, .sync, .push 2 true] = some s ∧ s.device = none := ⟨_, rfl, rfl⟩

end GooFit
