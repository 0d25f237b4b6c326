
/-! ## Examples: the hypotheses hold for concrete data in 53-bit arithmetic and any choice of the compiler -/

section
variable (v : Int → Chop)

/-- memory of single doubles -/
def litMem (pol : Ex Unit → Fusing) (v : Int → Chop) (p : Int) : Fused Chop pol := Fused.lit p (v p)

theorem u52 : (2:ℝ)⁻¹ ^ 52 ≤ 1 / 16 := by norm_num

theorem chop_struth (s : Cplx (Fused Chop pol)) : STruth chopModel (.z s : Scal (Fused Chop pol)) := by
  have h := (truth_of (S := fusedStd chopModel u52 (fun _ _ => True) pol) chop_truth.1
    (fun a b k => chop_truth.2 _ _ k)).2.1 s
  exact ⟨h.zero, h.one⟩

example := C66_norm_axpyv chopModel u52 pol (memOf 0 200 (litMem pol v)) 'R' 5 0 2 60 3 (.z ⟨litMem pol v 1, litMem pol v 2⟩) _ _
  (lv1_example _).1 (lv1_example _).2.1 (by decide) (lv1_example (litMem pol v)).2.2

example := C66_norm_dot chopModel u52 pol (memOf 0 200 (litMem pol v)) 5 0 2 60 3 _ _
  (lv1_example _).1 (lv1_example _).2.1 (by unfold Fits32; decide) (by unfold Fits32; decide)

example := C66_norm_gemm chopModel u52 pol (memOf 0 64 (litMem pol v)) ⟨64, 512, 64⟩ 1000 200000 (litMem pol v) 'C' 'N' 3 1 2
  (.z ⟨litMem pol v 1, litMem pol v 2⟩) (.d (litMem pol v 3)) 0 2 24 2 33 4 _ _ _ (gemmPre_example' (litMem pol v))

example := C66_norm_gemm_mixed chopModel u52 pol _ .d .z 'N' 'N' 2 2 3 (.z ⟨litMem pol v 1, litMem pol v 2⟩)
  (.z ⟨litMem pol v 3, litMem pol v 4⟩) _ _ _ _ _ _ _ _ _ _ _
  (.inl ⟨rfl, fun _ _ => rfl⟩) (.inl ⟨rfl, fun _ _ => rfl⟩) (chop_struth _) (chop_struth _) (gemmMArgs_example' (litMem pol v) _)

example := C66_norm_gemv_mixed chopModel u52 pol _ .z .d 'C' 2 3 (.z ⟨litMem pol v 1, litMem pol v 2⟩) 0 4 60 2
  (.z ⟨litMem pol v 3, litMem pol v 4⟩) 90 1 _ _ _ _ (.inr (.inr ⟨rfl, fun _ _ => rfl⟩)) (chop_struth _) (chop_struth _)
  (by decide) (by decide) (gemvMArgs_example' (litMem pol v) _)

example := C66_norm_ger_mixed chopModel u52 pol .d .z true _ 2 2 (.z ⟨litMem pol v 1, litMem pol v 2⟩) 0 3 20 1 60 2 _ _ _
  (chop_struth _) (gerMArgs_example' (litMem pol v))
end

end Haxx
