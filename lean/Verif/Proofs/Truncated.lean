import Verif.Proofs.Run

/-!
# Lemmas about output that ends early

In a build with overflow checks the output routines may panic half-way. What was shown before is a beginning
of what a build without the checks shows.
-/

namespace Pemv

open Spec

/-- The same build without overflow checks. -/
def Machine.unchecked (m : Machine) : Machine := { m with overflowChecks := false }

/-- Either the same, or an early panic. -/
def Truncates (d d' : Disp) : Prop := d = d' ∨ (d.panicked = true ∧ d.evs <+: d'.evs)

theorem Truncates.refl (d : Disp) : Truncates d d := Or.inl rfl

theorem Truncates.seq {a a' b b' : Disp} (h1 : Truncates a a') (h2 : Truncates b b') :
    Truncates (a.seq b) (a'.seq b') := by
  rcases h1 with rfl | ⟨hp, hpre⟩
  · rcases h2 with rfl | ⟨hp2, hpre2⟩
    · exact .refl _
    · by_cases ha : a.panicked = true
      · left; rw [Disp.seq, Disp.seq, if_pos ha, if_pos ha]
      · right
        rw [Disp.seq, Disp.seq, if_neg ha, if_neg ha]
        exact ⟨hp2, (List.prefix_append_right_inj _).2 hpre2⟩
  · right
    rw [Disp.seq, if_pos hp]
    refine ⟨hp, ?_⟩
    rw [Disp.seq]
    split
    · exact hpre
    · exact hpre.trans (List.prefix_append _ _)

theorem truncates_nil : Truncates (.all []) (.all []) := .refl _

theorem Truncates.cons {d d' : Disp} {ds ds' : List Disp} (h : Truncates d d') (hs : Truncates (.all ds) (.all ds')) :
    Truncates (.all (d :: ds)) (.all (d' :: ds')) := h.seq hs

theorem truncates_indentSucc (m : Machine) (i : Nat) {k k' : Nat → Disp} (h : ∀ j, Truncates (k j) (k' j)) :
    Truncates (withIndentSucc m i k) (withIndentSucc m.unchecked i k') := by
  rw [withIndentSucc, withIndentSucc]
  by_cases hi : i + 1 < 256
  · rw [if_pos hi, if_pos hi]; exact h _
  · rw [if_neg hi, if_neg hi]
    by_cases hm : m.overflowChecks = true
    · rw [if_pos hm]
      exact Or.inr ⟨rfl, List.nil_prefix⟩
    · rw [if_neg hm, if_neg (by simp [Machine.unchecked])]; exact h _

theorem truncates_cvmRule (m : Machine) (i number : Nat) (r : Value) :
    Truncates (displayCvmRule m i number r) (displayCvmRule m.unchecked i number r) := by
  rw [displayCvmRule, displayCvmRule]
  have hi := truncates_indentSucc m i (k := printIndentation) (fun j => .refl _)
  exact .cons (.refl _) (.cons (.refl _) (.cons (.refl _) (.cons (.refl _) (.cons hi (.cons (.refl _)
    (.cons (.refl _) (.cons (.refl _) (.cons (.refl _) (.cons hi (.cons (.refl _) (.cons (.refl _)
    (.cons (.refl _) (.cons (.refl _) (.cons hi (.refl _)))))))))))))))

theorem truncates_cvmRules (m : Machine) (i : Nat) (rs : List Value) (number : Nat) :
    Truncates (displayCvmRules m i number rs) (displayCvmRules m.unchecked i number rs) := by
  induction rs generalizing number with
  | nil => exact .refl _
  | cons r rs ih => rw [displayCvmRules, displayCvmRules]; exact (truncates_cvmRule m i number r).seq (ih _)

theorem truncates_cvmList (m : Machine) (v : CvmList) (i : Nat) :
    Truncates (displayCvmList m v i) (displayCvmList m.unchecked v i) := by
  rw [displayCvmList, displayCvmList]
  exact .cons (.refl _) (.cons (.refl _) (.cons (.refl _) (.cons (.refl _) (.cons (.refl _)
    (.cons (truncates_cvmRules m i v.cvRules 1) (.refl _))))))

theorem truncates_iad (m : Machine) (v : Iad) (i : Nat) (c : Bool) :
    Truncates (displayIad m v i c) (displayIad m.unchecked v i c) := by
  rw [displayIad, displayIad]
  have hi : ∀ k : Nat → Disp, Truncates (withIndentSucc m i k) (withIndentSucc m.unchecked i k) :=
    fun k => truncates_indentSucc m i (fun j => .refl _)
  exact .cons (.refl _) (.cons (.refl _) (.cons (.refl _) (.cons (.refl _) (.cons (hi _) (.cons (.refl _)
    (.cons (.refl _) (.cons (.refl _) (.cons (.refl _) (.cons (.refl _) (.cons (.refl _) (.cons (.refl _)
    (.cons (.refl _) (.cons (.refl _) (.cons (hi _) (.cons (.refl _) (.cons (.refl _) (.cons (.refl _)
    (.cons (.refl _) (.cons (hi _) (.cons (.refl _) (.cons (.refl _) (.cons (.refl _) (.cons (.refl _)
    (.cons (hi _) (.refl _)))))))))))))))))))))))))

theorem truncates_value (m : Machine) (v : ParsedValue) (i : Nat) (c : Bool) :
    Truncates (v.display m i c) (v.display m.unchecked i c) := by
  cases v with
  | cvmList v => exact truncates_cvmList m v i
  | iad v => exact truncates_iad m v i c
  | _ => exact .refl _

theorem truncates_rawTag (m : Machine) (t : RawEmvTag) (i : Nat) :
    Truncates (displayRawTag m t i) (displayRawTag m.unchecked t i) := by
  rw [displayRawTag, displayRawTag]
  split
  · exact .refl _
  · exact .cons (.refl _) (.cons (.refl _) (.cons (.refl _) (.cons (.refl _)
      (.cons (truncates_indentSucc m i (fun j => .refl _)) (.refl _)))))
  · exact .refl _

theorem truncates_tag (m : Machine) (t : ProcessedEmvTag) (i : Nat) (c : Bool) :
    Truncates (displayTag m t i c) (displayTag m.unchecked t i c) := by
  cases t with
  | raw t => exact .cons (.refl _) (.cons (truncates_rawTag m t i) (.refl _))
  | annotated n t => exact .cons (.refl _) (.cons (truncates_rawTag m t i) (.refl _))
  | parsed n v t =>
    exact .cons (.refl _) (.cons (truncates_rawTag m t i) (.cons (.refl _) (.cons (.refl _) (.cons (.refl _)
      (.cons (.refl _) (.cons (truncates_indentSucc m i (fun j => truncates_value m v j c)) (.refl _)))))))

mutual
theorem truncates_node (m : Machine) (c : Bool) : ∀ (n : ProcessedEmvNode) (i : Nat),
    Truncates (displayNode m c n i) (displayNode m.unchecked c n i)
  | .mk t children, i => by
    rw [displayNode, displayNode]
    refine .cons (truncates_tag m t i c) (.cons ?_ (.refl _))
    by_cases he : children.isEmpty = true
    · rw [if_pos he, if_pos he]; exact .refl _
    · rw [if_neg he, if_neg he]
      exact .cons (.refl _) (.cons (.refl _) (.cons (.refl _) (.cons (.refl _)
        (.cons (truncates_indentSucc m i (fun j => truncates_nodes m c children true j)) (.refl _)))))
theorem truncates_nodes (m : Machine) (c : Bool) : ∀ (b : List ProcessedEmvNode) (first : Bool) (i : Nat),
    Truncates (displayNodes m c b first i) (displayNodes m.unchecked c b first i)
  | [], _, _ => by rw [displayNodes, displayNodes]; exact .refl _
  | n :: ns, first, i => by
    rw [displayNodes, displayNodes]
    exact .cons (.refl _) (.cons (truncates_node m c n i) (.cons (truncates_nodes m c ns false i) (.refl _)))
end

/-! ### Too deep -/

theorem seq_panicked_left {a b : Disp} (h : a.panicked = true) : (a.seq b).panicked = true := by
  rw [Disp.seq, if_pos h]; exact h

theorem seq_panicked_right {a b : Disp} (h : b.panicked = true) : (a.seq b).panicked = true := by
  rw [Disp.seq]; split
  · assumption
  · exact h

theorem all_panicked {ds : List Disp} {d : Disp} (h : d ∈ ds) (hp : d.panicked = true) :
    (Disp.all ds).panicked = true := by
  induction ds with
  | nil => cases h
  | cons e es ih =>
    rw [Disp.all]
    rcases List.mem_cons.1 h with rfl | h
    · exact seq_panicked_left hp
    · exact seq_panicked_right (ih h)

mutual
theorem deep_node {m : Machine} (hm : m.overflowChecks = true) (c : Bool) : ∀ (n : ProcessedEmvNode) (i : Nat),
    i < 256 → 257 ≤ i + nodeDepth (eraseNode n) → (displayNode m c n i).panicked = true
  | .mk t [], i => by
    rw [eraseNode, eraseBlock, nodeDepth, blockDepth]; omega
  | .mk t (n :: ns), i => by
    intro hi hd
    rw [eraseNode, nodeDepth] at hd
    rw [displayNode]
    refine all_panicked (List.mem_cons_of_mem _ (List.mem_cons_self ..)) ?_
    rw [if_neg (by simp)]
    refine all_panicked (d := withIndentSucc m i (fun i => displayNodes m c (n :: ns) true i)) (by simp) ?_
    rw [withIndentSucc]
    by_cases h : i + 1 < 256
    · rw [if_pos h]; exact deep_nodes hm c (n :: ns) true (i + 1) h (by omega)
    · rw [if_neg h, if_pos hm]; rfl
theorem deep_nodes {m : Machine} (hm : m.overflowChecks = true) (c : Bool) :
    ∀ (b : List ProcessedEmvNode) (first : Bool) (i : Nat),
    i < 256 → 257 ≤ i + blockDepth (eraseBlock b) → (displayNodes m c b first i).panicked = true
  | [], _, i => by rw [eraseBlock, blockDepth]; omega
  | n :: ns, first, i => by
    intro hi hd
    rw [eraseBlock, blockDepth] at hd
    rw [displayNodes]
    by_cases h : 257 ≤ i + nodeDepth (eraseNode n)
    · exact all_panicked (List.mem_cons_of_mem _ (List.mem_cons_self ..)) (deep_node hm c n i hi h)
    · exact all_panicked (List.mem_cons_of_mem _ (List.mem_cons_of_mem _ (List.mem_cons_self ..)))
        (deep_nodes hm c ns false i hi (by omega))
end

end Pemv
