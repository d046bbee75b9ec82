import Verif.Lemmas.ShippedModels
import Verif.Spec.Shipped
import Mathlib.Tactic.Linarith
import Mathlib.Tactic.Ring
import Mathlib.Tactic.CasesM
import Mathlib.Data.Rat.Floor
import Mathlib.Algebra.Order.Interval.Finset.Basic

/-! # The models of the shipped libraries stand for their rules -/

namespace Verif.Shipped
open Verif

set_option linter.unusedSimpArgs false

section
variable (M : MCtx) (t s : Int)

theorem r_var (n : String) : mden M (.var n) t s = M.readings.v n t s := rfl
theorem r_par (n : String) : mden M (.par n) t s = M.readings.p n t s := rfl
theorem r_agg (p f : String) (a : PortAgg) : mden M (.agg (.portField p f) a) t s = M.readings.received p f t s := by
  rw [mden]
  rfl
theorem r_fin (q : ℚ) : mden M (.lit (.fin q)) t s = q := by rw [mden]
theorem r_neg (e : Expr) : mden M (.neg e) t s = - mden M e t s := by rw [mden]
theorem r_mul (a b : Expr) : mden M (.mul a b) t s = mden M a t s * mden M b t s := by rw [mden]
theorem r_div (a b : Expr) : mden M (.div a b) t s = mden M a t s / mden M b t s := by rw [mden]
theorem r_add (es : List Expr) : mden M (.add es) t s = mdenSum M es t s := by rw [mden]
theorem r_nil : mdenSum M [] t s = 0 := by rw [mdenSum]
theorem r_cons (e : Expr) (es : List Expr) : mdenSum M (e :: es) t s = mden M e t s + mdenSum M es t s := by rw [mdenSum]
theorem r_shift (e k : Expr) : mden M (.shift e k) t s = mden M e (t + (mden M k 0 0).floor) s := by rw [mden]
theorem r_evalT (e k : Expr) : mden M (.evalT e k) t s = mden M e (mden M k 0 0).floor s := by rw [mden]
theorem r_allsum (e : Expr) : mden M (.allsum e) t s = ∑ u ∈ Finset.range M.readings.T, mden M e u s := by
  rw [mden]
  rfl
theorem r_scen (e : Expr) (o : ScenOp) :
    mden M (.scen e o) t s = (∑ w ∈ Finset.range M.readings.S, mden M e t w) / M.readings.S := by
  rw [mden]
  rfl
theorem r_tsum (e a b : Expr) : mden M (.tsum e a b) t s =
    ∑ k ∈ Finset.Icc (t + (mden M a 0 0).floor) (t + (mden M b 0 0).floor), mden M e k s := by
  rw [mden, ← Finset.map_add_left_Icc, Finset.sum_map]
  rfl

theorem above_fin (q x : ℚ) : aboveBound M (.lit (.fin q)) x t s ↔ q ≤ x := by simp [aboveBound, mden]
theorem above_ninf (x : ℚ) : aboveBound M (.lit .ninf) x t s ↔ True := by simp [aboveBound]
theorem above_par (n : String) (x : ℚ) : aboveBound M (.par n) x t s ↔ M.readings.p n t s ≤ x := by simp [aboveBound, r_par]
theorem above_mul (a b : Expr) (x : ℚ) : aboveBound M (.mul a b) x t s ↔ mden M a t s * mden M b t s ≤ x := by
  simp [aboveBound, r_mul]
theorem below_fin (q x : ℚ) : belowBound M (.lit (.fin q)) x t s ↔ x ≤ q := by simp [belowBound, mden]
theorem below_pinf (x : ℚ) : belowBound M (.lit .pinf) x t s ↔ True := by simp [belowBound]
theorem below_par (n : String) (x : ℚ) : belowBound M (.par n) x t s ↔ x ≤ M.readings.p n t s := by simp [belowBound, r_par]
theorem below_mul (a b : Expr) (x : ℚ) : belowBound M (.mul a b) x t s ↔ x ≤ mden M a t s * mden M b t s := by
  simp [belowBound, r_mul]

end

theorem floor_neg (q : ℚ) : (-q).floor = - q.ceil := by rw [Rat.ceil_eq_neg_floor_neg, neg_neg]
theorem floor_neg_add_one (q : ℚ) : (-q + 1).floor = - q.ceil + 1 := by rw [Rat.floor_add_one, floor_neg]
theorem floor_one : Rat.floor 1 = 1 := rfl
theorem floor_zero : Rat.floor 0 = 0 := rfl
theorem ceil_one : Rat.ceil 1 = 1 := rfl

theorem antaresAreaModel_stands : antaresAreaModel.StandsFor Rules.area where
  parameters := rfl
  variables_ := rfl
  ports := rfl
  accepts M t s := by
    simp only [Model.AcceptsAt, antaresAreaModel, Dict.values, OptCtx.aboveOpt, OptCtx.belowOpt, OptCtx.ofType, above_fin,
      above_ninf, above_par, above_mul, below_fin, below_pinf, below_par, below_mul, Constraint.Holds, List.map_cons, List.map_nil,
      List.forall_mem_cons, List.not_mem_nil, IsEmpty.forall_iff, implies_true,
      r_var, r_par, r_agg, r_fin, r_neg, r_mul, r_div, r_add, r_nil, r_cons, r_shift, r_evalT, r_allsum, r_scen, r_tsum]
    simp only [Rules.area, Whole, Rules.total, Rules.free, Rules.lastSteps]
    generalize M.readings = r
    try simp only [floor_neg, floor_neg_add_one, floor_one, floor_zero, ceil_one, add_zero, and_true, true_and, ← sub_eq_add_neg,
      ← add_sub_assoc, neg_neg, ← add_assoc]
    try
      constructor
      all_goals
        intro h
        try casesm* _ ∧ _
        repeat' apply And.intro
        all_goals first | trivial | assumption | linarith
  cost M := by
    simp only [Model.objectives, antaresAreaModel, Rules.area, Readings.expectedTotal, Option.toList, List.append_nil, List.map_cons,
      List.map_nil, List.sum_cons, List.sum_nil,
      r_var, r_par, r_agg, r_fin, r_neg, r_mul, r_div, r_add, r_nil, r_cons, r_shift, r_evalT, r_allsum, r_scen, r_tsum]
    try generalize M.readings = r
    try simp only [add_zero, add_assoc, mul_comm]
  sends := by
    intro port fs h field e he
    simp only [Rules.area, List.mem_cons, List.not_mem_nil, or_false, Prod.mk.injEq] at h
    try casesm* _ ∨ _
    all_goals
      try casesm* _ ∧ _
      subst_vars
      simp only [List.mem_cons, List.not_mem_nil, or_false, Prod.mk.injEq] at he
      try casesm* _ ∧ _
      subst_vars
      first
        | rfl
        | exact ⟨_, rfl, fun M t s => by
            try simp only [r_var, r_par, r_agg, r_fin, r_neg, r_mul, r_div, r_add, r_nil, r_cons, r_shift, r_evalT, r_allsum, r_scen, r_tsum]
            try ring⟩

theorem antaresLoadModel_stands : antaresLoadModel.StandsFor Rules.load where
  parameters := rfl
  variables_ := rfl
  ports := rfl
  accepts M t s := by
    simp only [Model.AcceptsAt, antaresLoadModel, Dict.values, OptCtx.aboveOpt, OptCtx.belowOpt, OptCtx.ofType, above_fin,
      above_ninf, above_par, above_mul, below_fin, below_pinf, below_par, below_mul, Constraint.Holds, List.map_cons, List.map_nil,
      List.forall_mem_cons, List.not_mem_nil, IsEmpty.forall_iff, implies_true,
      r_var, r_par, r_agg, r_fin, r_neg, r_mul, r_div, r_add, r_nil, r_cons, r_shift, r_evalT, r_allsum, r_scen, r_tsum]
    simp only [Rules.load, Whole, Rules.total, Rules.free, Rules.lastSteps]
    generalize M.readings = r
    try simp only [floor_neg, floor_neg_add_one, floor_one, floor_zero, ceil_one, add_zero, and_true, true_and, ← sub_eq_add_neg,
      ← add_sub_assoc, neg_neg, ← add_assoc]
    try
      constructor
      all_goals
        intro h
        try casesm* _ ∧ _
        repeat' apply And.intro
        all_goals first | trivial | assumption | linarith
  cost M := by
    simp only [Model.objectives, antaresLoadModel, Rules.load, Readings.expectedTotal, Option.toList, List.append_nil, List.map_cons,
      List.map_nil, List.sum_cons, List.sum_nil,
      r_var, r_par, r_agg, r_fin, r_neg, r_mul, r_div, r_add, r_nil, r_cons, r_shift, r_evalT, r_allsum, r_scen, r_tsum]
    try generalize M.readings = r
    try simp only [add_zero, add_assoc, mul_comm]
  sends := by
    intro port fs h field e he
    simp only [Rules.load, List.mem_cons, List.not_mem_nil, or_false, Prod.mk.injEq] at h
    try casesm* _ ∨ _
    all_goals
      try casesm* _ ∧ _
      subst_vars
      simp only [List.mem_cons, List.not_mem_nil, or_false, Prod.mk.injEq] at he
      try casesm* _ ∧ _
      subst_vars
      first
        | rfl
        | exact ⟨_, rfl, fun M t s => by
            try simp only [r_var, r_par, r_agg, r_fin, r_neg, r_mul, r_div, r_add, r_nil, r_cons, r_shift, r_evalT, r_allsum, r_scen, r_tsum]
            try ring⟩

theorem antaresLinkModel_stands : antaresLinkModel.StandsFor Rules.link where
  parameters := rfl
  variables_ := rfl
  ports := rfl
  accepts M t s := by
    simp only [Model.AcceptsAt, antaresLinkModel, Dict.values, OptCtx.aboveOpt, OptCtx.belowOpt, OptCtx.ofType, above_fin,
      above_ninf, above_par, above_mul, below_fin, below_pinf, below_par, below_mul, Constraint.Holds, List.map_cons, List.map_nil,
      List.forall_mem_cons, List.not_mem_nil, IsEmpty.forall_iff, implies_true,
      r_var, r_par, r_agg, r_fin, r_neg, r_mul, r_div, r_add, r_nil, r_cons, r_shift, r_evalT, r_allsum, r_scen, r_tsum]
    simp only [Rules.link, Whole, Rules.total, Rules.free, Rules.lastSteps]
    generalize M.readings = r
    try simp only [floor_neg, floor_neg_add_one, floor_one, floor_zero, ceil_one, add_zero, and_true, true_and, ← sub_eq_add_neg,
      ← add_sub_assoc, neg_neg, ← add_assoc]
    try
      constructor
      all_goals
        intro h
        try casesm* _ ∧ _
        repeat' apply And.intro
        all_goals first | trivial | assumption | linarith
  cost M := by
    simp only [Model.objectives, antaresLinkModel, Rules.link, Readings.expectedTotal, Option.toList, List.append_nil, List.map_cons,
      List.map_nil, List.sum_cons, List.sum_nil,
      r_var, r_par, r_agg, r_fin, r_neg, r_mul, r_div, r_add, r_nil, r_cons, r_shift, r_evalT, r_allsum, r_scen, r_tsum]
    try generalize M.readings = r
    try simp only [add_zero, add_assoc, mul_comm]
  sends := by
    intro port fs h field e he
    simp only [Rules.link, List.mem_cons, List.not_mem_nil, or_false, Prod.mk.injEq] at h
    try casesm* _ ∨ _
    all_goals
      try casesm* _ ∧ _
      subst_vars
      simp only [List.mem_cons, List.not_mem_nil, or_false, Prod.mk.injEq] at he
      try casesm* _ ∧ _
      subst_vars
      first
        | rfl
        | exact ⟨_, rfl, fun M t s => by
            try simp only [r_var, r_par, r_agg, r_fin, r_neg, r_mul, r_div, r_add, r_nil, r_cons, r_shift, r_evalT, r_allsum, r_scen, r_tsum]
            try ring⟩

theorem antaresRenewableModel_stands : antaresRenewableModel.StandsFor Rules.renewable where
  parameters := rfl
  variables_ := rfl
  ports := rfl
  accepts M t s := by
    simp only [Model.AcceptsAt, antaresRenewableModel, Dict.values, OptCtx.aboveOpt, OptCtx.belowOpt, OptCtx.ofType, above_fin,
      above_ninf, above_par, above_mul, below_fin, below_pinf, below_par, below_mul, Constraint.Holds, List.map_cons, List.map_nil,
      List.forall_mem_cons, List.not_mem_nil, IsEmpty.forall_iff, implies_true,
      r_var, r_par, r_agg, r_fin, r_neg, r_mul, r_div, r_add, r_nil, r_cons, r_shift, r_evalT, r_allsum, r_scen, r_tsum]
    simp only [Rules.renewable, Whole, Rules.total, Rules.free, Rules.lastSteps]
    generalize M.readings = r
    try simp only [floor_neg, floor_neg_add_one, floor_one, floor_zero, ceil_one, add_zero, and_true, true_and, ← sub_eq_add_neg,
      ← add_sub_assoc, neg_neg, ← add_assoc]
    try
      constructor
      all_goals
        intro h
        try casesm* _ ∧ _
        repeat' apply And.intro
        all_goals first | trivial | assumption | linarith
  cost M := by
    simp only [Model.objectives, antaresRenewableModel, Rules.renewable, Readings.expectedTotal, Option.toList, List.append_nil, List.map_cons,
      List.map_nil, List.sum_cons, List.sum_nil,
      r_var, r_par, r_agg, r_fin, r_neg, r_mul, r_div, r_add, r_nil, r_cons, r_shift, r_evalT, r_allsum, r_scen, r_tsum]
    try generalize M.readings = r
    try simp only [add_zero, add_assoc, mul_comm]
  sends := by
    intro port fs h field e he
    simp only [Rules.renewable, List.mem_cons, List.not_mem_nil, or_false, Prod.mk.injEq] at h
    try casesm* _ ∨ _
    all_goals
      try casesm* _ ∧ _
      subst_vars
      simp only [List.mem_cons, List.not_mem_nil, or_false, Prod.mk.injEq] at he
      try casesm* _ ∧ _
      subst_vars
      first
        | rfl
        | exact ⟨_, rfl, fun M t s => by
            try simp only [r_var, r_par, r_agg, r_fin, r_neg, r_mul, r_div, r_add, r_nil, r_cons, r_shift, r_evalT, r_allsum, r_scen, r_tsum]
            try ring⟩

theorem antaresThermalModel_stands : antaresThermalModel.StandsFor Rules.thermal where
  parameters := rfl
  variables_ := rfl
  ports := rfl
  accepts M t s := by
    simp only [Model.AcceptsAt, antaresThermalModel, Dict.values, OptCtx.aboveOpt, OptCtx.belowOpt, OptCtx.ofType, above_fin,
      above_ninf, above_par, above_mul, below_fin, below_pinf, below_par, below_mul, Constraint.Holds, List.map_cons, List.map_nil,
      List.forall_mem_cons, List.not_mem_nil, IsEmpty.forall_iff, implies_true,
      r_var, r_par, r_agg, r_fin, r_neg, r_mul, r_div, r_add, r_nil, r_cons, r_shift, r_evalT, r_allsum, r_scen, r_tsum]
    simp only [Rules.thermal, Whole, Rules.total, Rules.free, Rules.lastSteps]
    generalize M.readings = r
    try simp only [floor_neg, floor_neg_add_one, floor_one, floor_zero, ceil_one, add_zero, and_true, true_and, ← sub_eq_add_neg,
      ← add_sub_assoc, neg_neg, ← add_assoc]
    try
      constructor
      all_goals
        intro h
        try casesm* _ ∧ _
        repeat' apply And.intro
        all_goals first | trivial | assumption | linarith
  cost M := by
    simp only [Model.objectives, antaresThermalModel, Rules.thermal, Readings.expectedTotal, Option.toList, List.append_nil, List.map_cons,
      List.map_nil, List.sum_cons, List.sum_nil,
      r_var, r_par, r_agg, r_fin, r_neg, r_mul, r_div, r_add, r_nil, r_cons, r_shift, r_evalT, r_allsum, r_scen, r_tsum]
    try generalize M.readings = r
    try simp only [add_zero, add_assoc, mul_comm]
  sends := by
    intro port fs h field e he
    simp only [Rules.thermal, List.mem_cons, List.not_mem_nil, or_false, Prod.mk.injEq] at h
    try casesm* _ ∨ _
    all_goals
      try casesm* _ ∧ _
      subst_vars
      simp only [List.mem_cons, List.not_mem_nil, or_false, Prod.mk.injEq] at he
      try casesm* _ ∧ _
      subst_vars
      first
        | rfl
        | exact ⟨_, rfl, fun M t s => by
            try simp only [r_var, r_par, r_agg, r_fin, r_neg, r_mul, r_div, r_add, r_nil, r_cons, r_shift, r_evalT, r_allsum, r_scen, r_tsum]
            try ring⟩

theorem antaresShortTermStorageModel_stands : antaresShortTermStorageModel.StandsFor Rules.shortTermStorage where
  parameters := rfl
  variables_ := rfl
  ports := rfl
  accepts M t s := by
    simp only [Model.AcceptsAt, antaresShortTermStorageModel, Dict.values, OptCtx.aboveOpt, OptCtx.belowOpt, OptCtx.ofType, above_fin,
      above_ninf, above_par, above_mul, below_fin, below_pinf, below_par, below_mul, Constraint.Holds, List.map_cons, List.map_nil,
      List.forall_mem_cons, List.not_mem_nil, IsEmpty.forall_iff, implies_true,
      r_var, r_par, r_agg, r_fin, r_neg, r_mul, r_div, r_add, r_nil, r_cons, r_shift, r_evalT, r_allsum, r_scen, r_tsum]
    simp only [Rules.shortTermStorage, Whole, Rules.total, Rules.free, Rules.lastSteps]
    generalize M.readings = r
    try simp only [floor_neg, floor_neg_add_one, floor_one, floor_zero, ceil_one, add_zero, and_true, true_and, ← sub_eq_add_neg,
      ← add_sub_assoc, neg_neg, ← add_assoc]
    try
      constructor
      all_goals
        intro h
        try casesm* _ ∧ _
        repeat' apply And.intro
        all_goals first | trivial | assumption | linarith
  cost M := by
    simp only [Model.objectives, antaresShortTermStorageModel, Rules.shortTermStorage, Readings.expectedTotal, Option.toList, List.append_nil, List.map_cons,
      List.map_nil, List.sum_cons, List.sum_nil,
      r_var, r_par, r_agg, r_fin, r_neg, r_mul, r_div, r_add, r_nil, r_cons, r_shift, r_evalT, r_allsum, r_scen, r_tsum]
    try generalize M.readings = r
    try simp only [add_zero, add_assoc, mul_comm]
  sends := by
    intro port fs h field e he
    simp only [Rules.shortTermStorage, List.mem_cons, List.not_mem_nil, or_false, Prod.mk.injEq] at h
    try casesm* _ ∨ _
    all_goals
      try casesm* _ ∧ _
      subst_vars
      simp only [List.mem_cons, List.not_mem_nil, or_false, Prod.mk.injEq] at he
      try casesm* _ ∧ _
      subst_vars
      first
        | rfl
        | exact ⟨_, rfl, fun M t s => by
            try simp only [r_var, r_par, r_agg, r_fin, r_neg, r_mul, r_div, r_add, r_nil, r_cons, r_shift, r_evalT, r_allsum, r_scen, r_tsum]
            try ring⟩

theorem andromedeDsrModel_stands : andromedeDsrModel.StandsFor Rules.dsr where
  parameters := rfl
  variables_ := rfl
  ports := rfl
  accepts M t s := by
    simp only [Model.AcceptsAt, andromedeDsrModel, Dict.values, OptCtx.aboveOpt, OptCtx.belowOpt, OptCtx.ofType, above_fin,
      above_ninf, above_par, above_mul, below_fin, below_pinf, below_par, below_mul, Constraint.Holds, List.map_cons, List.map_nil,
      List.forall_mem_cons, List.not_mem_nil, IsEmpty.forall_iff, implies_true,
      r_var, r_par, r_agg, r_fin, r_neg, r_mul, r_div, r_add, r_nil, r_cons, r_shift, r_evalT, r_allsum, r_scen, r_tsum]
    simp only [Rules.dsr, Whole, Rules.total, Rules.free, Rules.lastSteps]
    generalize M.readings = r
    try simp only [floor_neg, floor_neg_add_one, floor_one, floor_zero, ceil_one, add_zero, and_true, true_and, ← sub_eq_add_neg,
      ← add_sub_assoc, neg_neg, ← add_assoc]
    try
      constructor
      all_goals
        intro h
        try casesm* _ ∧ _
        repeat' apply And.intro
        all_goals first | trivial | assumption | linarith
  cost M := by
    simp only [Model.objectives, andromedeDsrModel, Rules.dsr, Readings.expectedTotal, Option.toList, List.append_nil, List.map_cons,
      List.map_nil, List.sum_cons, List.sum_nil,
      r_var, r_par, r_agg, r_fin, r_neg, r_mul, r_div, r_add, r_nil, r_cons, r_shift, r_evalT, r_allsum, r_scen, r_tsum]
    try generalize M.readings = r
    try simp only [add_zero, add_assoc, mul_comm]
  sends := by
    intro port fs h field e he
    simp only [Rules.dsr, List.mem_cons, List.not_mem_nil, or_false, Prod.mk.injEq] at h
    try casesm* _ ∨ _
    all_goals
      try casesm* _ ∧ _
      subst_vars
      simp only [List.mem_cons, List.not_mem_nil, or_false, Prod.mk.injEq] at he
      try casesm* _ ∧ _
      subst_vars
      first
        | rfl
        | exact ⟨_, rfl, fun M t s => by
            try simp only [r_var, r_par, r_agg, r_fin, r_neg, r_mul, r_div, r_add, r_nil, r_cons, r_shift, r_evalT, r_allsum, r_scen, r_tsum]
            try ring⟩

theorem andromedeElectrolyserModel_stands : andromedeElectrolyserModel.StandsFor Rules.electrolyser where
  parameters := rfl
  variables_ := rfl
  ports := rfl
  accepts M t s := by
    simp only [Model.AcceptsAt, andromedeElectrolyserModel, Dict.values, OptCtx.aboveOpt, OptCtx.belowOpt, OptCtx.ofType, above_fin,
      above_ninf, above_par, above_mul, below_fin, below_pinf, below_par, below_mul, Constraint.Holds, List.map_cons, List.map_nil,
      List.forall_mem_cons, List.not_mem_nil, IsEmpty.forall_iff, implies_true,
      r_var, r_par, r_agg, r_fin, r_neg, r_mul, r_div, r_add, r_nil, r_cons, r_shift, r_evalT, r_allsum, r_scen, r_tsum]
    simp only [Rules.electrolyser, Whole, Rules.total, Rules.free, Rules.lastSteps]
    generalize M.readings = r
    try simp only [floor_neg, floor_neg_add_one, floor_one, floor_zero, ceil_one, add_zero, and_true, true_and, ← sub_eq_add_neg,
      ← add_sub_assoc, neg_neg, ← add_assoc]
    try
      constructor
      all_goals
        intro h
        try casesm* _ ∧ _
        repeat' apply And.intro
        all_goals first | trivial | assumption | linarith
  cost M := by
    simp only [Model.objectives, andromedeElectrolyserModel, Rules.electrolyser, Readings.expectedTotal, Option.toList, List.append_nil, List.map_cons,
      List.map_nil, List.sum_cons, List.sum_nil,
      r_var, r_par, r_agg, r_fin, r_neg, r_mul, r_div, r_add, r_nil, r_cons, r_shift, r_evalT, r_allsum, r_scen, r_tsum]
    try generalize M.readings = r
    try simp only [add_zero, add_assoc, mul_comm]
  sends := by
    intro port fs h field e he
    simp only [Rules.electrolyser, List.mem_cons, List.not_mem_nil, or_false, Prod.mk.injEq] at h
    try casesm* _ ∨ _
    all_goals
      try casesm* _ ∧ _
      subst_vars
      simp only [List.mem_cons, List.not_mem_nil, or_false, Prod.mk.injEq] at he
      try casesm* _ ∧ _
      subst_vars
      first
        | rfl
        | exact ⟨_, rfl, fun M t s => by
            try simp only [r_var, r_par, r_agg, r_fin, r_neg, r_mul, r_div, r_add, r_nil, r_cons, r_shift, r_evalT, r_allsum, r_scen, r_tsum]
            try ring⟩

theorem andromedeBatteryModel_stands : andromedeBatteryModel.StandsFor Rules.battery where
  parameters := rfl
  variables_ := rfl
  ports := rfl
  accepts M t s := by
    simp only [Model.AcceptsAt, andromedeBatteryModel, Dict.values, OptCtx.aboveOpt, OptCtx.belowOpt, OptCtx.ofType, above_fin,
      above_ninf, above_par, above_mul, below_fin, below_pinf, below_par, below_mul, Constraint.Holds, List.map_cons, List.map_nil,
      List.forall_mem_cons, List.not_mem_nil, IsEmpty.forall_iff, implies_true,
      r_var, r_par, r_agg, r_fin, r_neg, r_mul, r_div, r_add, r_nil, r_cons, r_shift, r_evalT, r_allsum, r_scen, r_tsum]
    simp only [Rules.battery, Whole, Rules.total, Rules.free, Rules.lastSteps]
    generalize M.readings = r
    try simp only [floor_neg, floor_neg_add_one, floor_one, floor_zero, ceil_one, add_zero, and_true, true_and, ← sub_eq_add_neg,
      ← add_sub_assoc, neg_neg, ← add_assoc]
    try
      constructor
      all_goals
        intro h
        try casesm* _ ∧ _
        repeat' apply And.intro
        all_goals first | trivial | assumption | linarith
  cost M := by
    simp only [Model.objectives, andromedeBatteryModel, Rules.battery, Readings.expectedTotal, Option.toList, List.append_nil, List.map_cons,
      List.map_nil, List.sum_cons, List.sum_nil,
      r_var, r_par, r_agg, r_fin, r_neg, r_mul, r_div, r_add, r_nil, r_cons, r_shift, r_evalT, r_allsum, r_scen, r_tsum]
    try generalize M.readings = r
    try simp only [add_zero, add_assoc, mul_comm]
  sends := by
    intro port fs h field e he
    simp only [Rules.battery, List.mem_cons, List.not_mem_nil, or_false, Prod.mk.injEq] at h
    try casesm* _ ∨ _
    all_goals
      try casesm* _ ∧ _
      subst_vars
      simp only [List.mem_cons, List.not_mem_nil, or_false, Prod.mk.injEq] at he
      try casesm* _ ∧ _
      subst_vars
      first
        | rfl
        | exact ⟨_, rfl, fun M t s => by
            try simp only [r_var, r_par, r_agg, r_fin, r_neg, r_mul, r_div, r_add, r_nil, r_cons, r_shift, r_evalT, r_allsum, r_scen, r_tsum]
            try ring⟩

theorem pypsaBusModel_stands : pypsaBusModel.StandsFor Rules.bus where
  parameters := rfl
  variables_ := rfl
  ports := rfl
  accepts M t s := by
    simp only [Model.AcceptsAt, pypsaBusModel, Dict.values, OptCtx.aboveOpt, OptCtx.belowOpt, OptCtx.ofType, above_fin,
      above_ninf, above_par, above_mul, below_fin, below_pinf, below_par, below_mul, Constraint.Holds, List.map_cons, List.map_nil,
      List.forall_mem_cons, List.not_mem_nil, IsEmpty.forall_iff, implies_true,
      r_var, r_par, r_agg, r_fin, r_neg, r_mul, r_div, r_add, r_nil, r_cons, r_shift, r_evalT, r_allsum, r_scen, r_tsum]
    simp only [Rules.bus, Whole, Rules.total, Rules.free, Rules.lastSteps]
    generalize M.readings = r
    try simp only [floor_neg, floor_neg_add_one, floor_one, floor_zero, ceil_one, add_zero, and_true, true_and, ← sub_eq_add_neg,
      ← add_sub_assoc, neg_neg, ← add_assoc]
    try
      constructor
      all_goals
        intro h
        try casesm* _ ∧ _
        repeat' apply And.intro
        all_goals first | trivial | assumption | linarith
  cost M := by
    simp only [Model.objectives, pypsaBusModel, Rules.bus, Readings.expectedTotal, Option.toList, List.append_nil, List.map_cons,
      List.map_nil, List.sum_cons, List.sum_nil,
      r_var, r_par, r_agg, r_fin, r_neg, r_mul, r_div, r_add, r_nil, r_cons, r_shift, r_evalT, r_allsum, r_scen, r_tsum]
    try generalize M.readings = r
    try simp only [add_zero, add_assoc, mul_comm]
  sends := by
    intro port fs h field e he
    simp only [Rules.bus, List.mem_cons, List.not_mem_nil, or_false, Prod.mk.injEq] at h
    try casesm* _ ∨ _
    all_goals
      try casesm* _ ∧ _
      subst_vars
      simp only [List.mem_cons, List.not_mem_nil, or_false, Prod.mk.injEq] at he
      try casesm* _ ∧ _
      subst_vars
      first
        | rfl
        | exact ⟨_, rfl, fun M t s => by
            try simp only [r_var, r_par, r_agg, r_fin, r_neg, r_mul, r_div, r_add, r_nil, r_cons, r_shift, r_evalT, r_allsum, r_scen, r_tsum]
            try ring⟩

theorem pypsaLoadModel_stands : pypsaLoadModel.StandsFor Rules.pypsaLoad where
  parameters := rfl
  variables_ := rfl
  ports := rfl
  accepts M t s := by
    simp only [Model.AcceptsAt, pypsaLoadModel, Dict.values, OptCtx.aboveOpt, OptCtx.belowOpt, OptCtx.ofType, above_fin,
      above_ninf, above_par, above_mul, below_fin, below_pinf, below_par, below_mul, Constraint.Holds, List.map_cons, List.map_nil,
      List.forall_mem_cons, List.not_mem_nil, IsEmpty.forall_iff, implies_true,
      r_var, r_par, r_agg, r_fin, r_neg, r_mul, r_div, r_add, r_nil, r_cons, r_shift, r_evalT, r_allsum, r_scen, r_tsum]
    simp only [Rules.pypsaLoad, Whole, Rules.total, Rules.free, Rules.lastSteps]
    generalize M.readings = r
    try simp only [floor_neg, floor_neg_add_one, floor_one, floor_zero, ceil_one, add_zero, and_true, true_and, ← sub_eq_add_neg,
      ← add_sub_assoc, neg_neg, ← add_assoc]
    try
      constructor
      all_goals
        intro h
        try casesm* _ ∧ _
        repeat' apply And.intro
        all_goals first | trivial | assumption | linarith
  cost M := by
    simp only [Model.objectives, pypsaLoadModel, Rules.pypsaLoad, Readings.expectedTotal, Option.toList, List.append_nil, List.map_cons,
      List.map_nil, List.sum_cons, List.sum_nil,
      r_var, r_par, r_agg, r_fin, r_neg, r_mul, r_div, r_add, r_nil, r_cons, r_shift, r_evalT, r_allsum, r_scen, r_tsum]
    try generalize M.readings = r
    try simp only [add_zero, add_assoc, mul_comm]
  sends := by
    intro port fs h field e he
    simp only [Rules.pypsaLoad, List.mem_cons, List.not_mem_nil, or_false, Prod.mk.injEq] at h
    try casesm* _ ∨ _
    all_goals
      try casesm* _ ∧ _
      subst_vars
      simp only [List.mem_cons, List.not_mem_nil, or_false, Prod.mk.injEq] at he
      try casesm* _ ∧ _
      subst_vars
      first
        | rfl
        | exact ⟨_, rfl, fun M t s => by
            try simp only [r_var, r_par, r_agg, r_fin, r_neg, r_mul, r_div, r_add, r_nil, r_cons, r_shift, r_evalT, r_allsum, r_scen, r_tsum]
            try ring⟩

theorem pypsaGeneratorModel_stands : pypsaGeneratorModel.StandsFor Rules.generator where
  parameters := rfl
  variables_ := rfl
  ports := rfl
  accepts M t s := by
    simp only [Model.AcceptsAt, pypsaGeneratorModel, Dict.values, OptCtx.aboveOpt, OptCtx.belowOpt, OptCtx.ofType, above_fin,
      above_ninf, above_par, above_mul, below_fin, below_pinf, below_par, below_mul, Constraint.Holds, List.map_cons, List.map_nil,
      List.forall_mem_cons, List.not_mem_nil, IsEmpty.forall_iff, implies_true,
      r_var, r_par, r_agg, r_fin, r_neg, r_mul, r_div, r_add, r_nil, r_cons, r_shift, r_evalT, r_allsum, r_scen, r_tsum]
    simp only [Rules.generator, Whole, Rules.total, Rules.free, Rules.lastSteps]
    generalize M.readings = r
    try simp only [floor_neg, floor_neg_add_one, floor_one, floor_zero, ceil_one, add_zero, and_true, true_and, ← sub_eq_add_neg,
      ← add_sub_assoc, neg_neg, ← add_assoc]
    try
      constructor
      all_goals
        intro h
        try casesm* _ ∧ _
        repeat' apply And.intro
        all_goals first | trivial | assumption | linarith
  cost M := by
    simp only [Model.objectives, pypsaGeneratorModel, Rules.generator, Readings.expectedTotal, Option.toList, List.append_nil, List.map_cons,
      List.map_nil, List.sum_cons, List.sum_nil,
      r_var, r_par, r_agg, r_fin, r_neg, r_mul, r_div, r_add, r_nil, r_cons, r_shift, r_evalT, r_allsum, r_scen, r_tsum]
    try generalize M.readings = r
    try simp only [add_zero, add_assoc, mul_comm]
  sends := by
    intro port fs h field e he
    simp only [Rules.generator, List.mem_cons, List.not_mem_nil, or_false, Prod.mk.injEq] at h
    try casesm* _ ∨ _
    all_goals
      try casesm* _ ∧ _
      subst_vars
      simp only [List.mem_cons, List.not_mem_nil, or_false, Prod.mk.injEq] at he
      try casesm* _ ∧ _
      subst_vars
      first
        | rfl
        | exact ⟨_, rfl, fun M t s => by
            try simp only [r_var, r_par, r_agg, r_fin, r_neg, r_mul, r_div, r_add, r_nil, r_cons, r_shift, r_evalT, r_allsum, r_scen, r_tsum]
            try ring⟩

theorem pypsaLinkModel_stands : pypsaLinkModel.StandsFor Rules.pypsaLink where
  parameters := rfl
  variables_ := rfl
  ports := rfl
  accepts M t s := by
    simp only [Model.AcceptsAt, pypsaLinkModel, Dict.values, OptCtx.aboveOpt, OptCtx.belowOpt, OptCtx.ofType, above_fin,
      above_ninf, above_par, above_mul, below_fin, below_pinf, below_par, below_mul, Constraint.Holds, List.map_cons, List.map_nil,
      List.forall_mem_cons, List.not_mem_nil, IsEmpty.forall_iff, implies_true,
      r_var, r_par, r_agg, r_fin, r_neg, r_mul, r_div, r_add, r_nil, r_cons, r_shift, r_evalT, r_allsum, r_scen, r_tsum]
    simp only [Rules.pypsaLink, Whole, Rules.total, Rules.free, Rules.lastSteps]
    generalize M.readings = r
    try simp only [floor_neg, floor_neg_add_one, floor_one, floor_zero, ceil_one, add_zero, and_true, true_and, ← sub_eq_add_neg,
      ← add_sub_assoc, neg_neg, ← add_assoc]
    try
      constructor
      all_goals
        intro h
        try casesm* _ ∧ _
        repeat' apply And.intro
        all_goals first | trivial | assumption | linarith
  cost M := by
    simp only [Model.objectives, pypsaLinkModel, Rules.pypsaLink, Readings.expectedTotal, Option.toList, List.append_nil, List.map_cons,
      List.map_nil, List.sum_cons, List.sum_nil,
      r_var, r_par, r_agg, r_fin, r_neg, r_mul, r_div, r_add, r_nil, r_cons, r_shift, r_evalT, r_allsum, r_scen, r_tsum]
    try generalize M.readings = r
    try simp only [add_zero, add_assoc, mul_comm]
  sends := by
    intro port fs h field e he
    simp only [Rules.pypsaLink, List.mem_cons, List.not_mem_nil, or_false, Prod.mk.injEq] at h
    try casesm* _ ∨ _
    all_goals
      try casesm* _ ∧ _
      subst_vars
      simp only [List.mem_cons, List.not_mem_nil, or_false, Prod.mk.injEq] at he
      try casesm* _ ∧ _
      subst_vars
      first
        | rfl
        | exact ⟨_, rfl, fun M t s => by
            try simp only [r_var, r_par, r_agg, r_fin, r_neg, r_mul, r_div, r_add, r_nil, r_cons, r_shift, r_evalT, r_allsum, r_scen, r_tsum]
            try ring⟩

theorem pypsaStorageUnitModel_stands : pypsaStorageUnitModel.StandsFor Rules.storageUnit where
  parameters := rfl
  variables_ := rfl
  ports := rfl
  accepts M t s := by
    simp only [Model.AcceptsAt, pypsaStorageUnitModel, Dict.values, OptCtx.aboveOpt, OptCtx.belowOpt, OptCtx.ofType, above_fin,
      above_ninf, above_par, above_mul, below_fin, below_pinf, below_par, below_mul, Constraint.Holds, List.map_cons, List.map_nil,
      List.forall_mem_cons, List.not_mem_nil, IsEmpty.forall_iff, implies_true,
      r_var, r_par, r_agg, r_fin, r_neg, r_mul, r_div, r_add, r_nil, r_cons, r_shift, r_evalT, r_allsum, r_scen, r_tsum]
    simp only [Rules.storageUnit, Whole, Rules.total, Rules.free, Rules.lastSteps]
    generalize M.readings = r
    try simp only [floor_neg, floor_neg_add_one, floor_one, floor_zero, ceil_one, add_zero, and_true, true_and, ← sub_eq_add_neg,
      ← add_sub_assoc, neg_neg, ← add_assoc]
    try
      constructor
      all_goals
        intro h
        try casesm* _ ∧ _
        repeat' apply And.intro
        all_goals first | trivial | assumption | linarith
  cost M := by
    simp only [Model.objectives, pypsaStorageUnitModel, Rules.storageUnit, Readings.expectedTotal, Option.toList, List.append_nil, List.map_cons,
      List.map_nil, List.sum_cons, List.sum_nil,
      r_var, r_par, r_agg, r_fin, r_neg, r_mul, r_div, r_add, r_nil, r_cons, r_shift, r_evalT, r_allsum, r_scen, r_tsum]
    try generalize M.readings = r
    try simp only [add_zero, add_assoc, mul_comm]
  sends := by
    intro port fs h field e he
    simp only [Rules.storageUnit, List.mem_cons, List.not_mem_nil, or_false, Prod.mk.injEq] at h
    try casesm* _ ∨ _
    all_goals
      try casesm* _ ∧ _
      subst_vars
      simp only [List.mem_cons, List.not_mem_nil, or_false, Prod.mk.injEq] at he
      try casesm* _ ∧ _
      subst_vars
      first
        | rfl
        | exact ⟨_, rfl, fun M t s => by
            try simp only [r_var, r_par, r_agg, r_fin, r_neg, r_mul, r_div, r_add, r_nil, r_cons, r_shift, r_evalT, r_allsum, r_scen, r_tsum]
            try ring⟩

theorem pypsaStoreModel_stands : pypsaStoreModel.StandsFor Rules.store where
  parameters := rfl
  variables_ := rfl
  ports := rfl
  accepts M t s := by
    simp only [Model.AcceptsAt, pypsaStoreModel, Dict.values, OptCtx.aboveOpt, OptCtx.belowOpt, OptCtx.ofType, above_fin,
      above_ninf, above_par, above_mul, below_fin, below_pinf, below_par, below_mul, Constraint.Holds, List.map_cons, List.map_nil,
      List.forall_mem_cons, List.not_mem_nil, IsEmpty.forall_iff, implies_true,
      r_var, r_par, r_agg, r_fin, r_neg, r_mul, r_div, r_add, r_nil, r_cons, r_shift, r_evalT, r_allsum, r_scen, r_tsum]
    simp only [Rules.store, Whole, Rules.total, Rules.free, Rules.lastSteps]
    generalize M.readings = r
    try simp only [floor_neg, floor_neg_add_one, floor_one, floor_zero, ceil_one, add_zero, and_true, true_and, ← sub_eq_add_neg,
      ← add_sub_assoc, neg_neg, ← add_assoc]
    try
      constructor
      all_goals
        intro h
        try casesm* _ ∧ _
        repeat' apply And.intro
        all_goals first | trivial | assumption | linarith
  cost M := by
    simp only [Model.objectives, pypsaStoreModel, Rules.store, Readings.expectedTotal, Option.toList, List.append_nil, List.map_cons,
      List.map_nil, List.sum_cons, List.sum_nil,
      r_var, r_par, r_agg, r_fin, r_neg, r_mul, r_div, r_add, r_nil, r_cons, r_shift, r_evalT, r_allsum, r_scen, r_tsum]
    try generalize M.readings = r
    try simp only [add_zero, add_assoc, mul_comm]
  sends := by
    intro port fs h field e he
    simp only [Rules.store, List.mem_cons, List.not_mem_nil, or_false, Prod.mk.injEq] at h
    try casesm* _ ∨ _
    all_goals
      try casesm* _ ∧ _
      subst_vars
      simp only [List.mem_cons, List.not_mem_nil, or_false, Prod.mk.injEq] at he
      try casesm* _ ∧ _
      subst_vars
      first
        | rfl
        | exact ⟨_, rfl, fun M t s => by
            try simp only [r_var, r_par, r_agg, r_fin, r_neg, r_mul, r_div, r_add, r_nil, r_cons, r_shift, r_evalT, r_allsum, r_scen, r_tsum]
            try ring⟩

theorem pypsaGlobalConstraintCo2MaxModel_stands : pypsaGlobalConstraintCo2MaxModel.StandsFor Rules.co2Max where
  parameters := rfl
  variables_ := rfl
  ports := rfl
  accepts M t s := by
    simp only [Model.AcceptsAt, pypsaGlobalConstraintCo2MaxModel, Dict.values, OptCtx.aboveOpt, OptCtx.belowOpt, OptCtx.ofType, above_fin,
      above_ninf, above_par, above_mul, below_fin, below_pinf, below_par, below_mul, Constraint.Holds, List.map_cons, List.map_nil,
      List.forall_mem_cons, List.not_mem_nil, IsEmpty.forall_iff, implies_true,
      r_var, r_par, r_agg, r_fin, r_neg, r_mul, r_div, r_add, r_nil, r_cons, r_shift, r_evalT, r_allsum, r_scen, r_tsum]
    simp only [Rules.co2Max, Whole, Rules.total, Rules.free, Rules.lastSteps]
    generalize M.readings = r
    try simp only [floor_neg, floor_neg_add_one, floor_one, floor_zero, ceil_one, add_zero, and_true, true_and, ← sub_eq_add_neg,
      ← add_sub_assoc, neg_neg, ← add_assoc]
    try
      constructor
      all_goals
        intro h
        try casesm* _ ∧ _
        repeat' apply And.intro
        all_goals first | trivial | assumption | linarith
  cost M := by
    simp only [Model.objectives, pypsaGlobalConstraintCo2MaxModel, Rules.co2Max, Readings.expectedTotal, Option.toList, List.append_nil, List.map_cons,
      List.map_nil, List.sum_cons, List.sum_nil,
      r_var, r_par, r_agg, r_fin, r_neg, r_mul, r_div, r_add, r_nil, r_cons, r_shift, r_evalT, r_allsum, r_scen, r_tsum]
    try generalize M.readings = r
    try simp only [add_zero, add_assoc, mul_comm]
  sends := by
    intro port fs h field e he
    simp only [Rules.co2Max, List.mem_cons, List.not_mem_nil, or_false, Prod.mk.injEq] at h
    try casesm* _ ∨ _
    all_goals
      try casesm* _ ∧ _
      subst_vars
      simp only [List.mem_cons, List.not_mem_nil, or_false, Prod.mk.injEq] at he
      try casesm* _ ∧ _
      subst_vars
      first
        | rfl
        | exact ⟨_, rfl, fun M t s => by
            try simp only [r_var, r_par, r_agg, r_fin, r_neg, r_mul, r_div, r_add, r_nil, r_cons, r_shift, r_evalT, r_allsum, r_scen, r_tsum]
            try ring⟩

theorem pypsaGlobalConstraintCo2EqModel_stands : pypsaGlobalConstraintCo2EqModel.StandsFor Rules.co2Eq where
  parameters := rfl
  variables_ := rfl
  ports := rfl
  accepts M t s := by
    simp only [Model.AcceptsAt, pypsaGlobalConstraintCo2EqModel, Dict.values, OptCtx.aboveOpt, OptCtx.belowOpt, OptCtx.ofType, above_fin,
      above_ninf, above_par, above_mul, below_fin, below_pinf, below_par, below_mul, Constraint.Holds, List.map_cons, List.map_nil,
      List.forall_mem_cons, List.not_mem_nil, IsEmpty.forall_iff, implies_true,
      r_var, r_par, r_agg, r_fin, r_neg, r_mul, r_div, r_add, r_nil, r_cons, r_shift, r_evalT, r_allsum, r_scen, r_tsum]
    simp only [Rules.co2Eq, Whole, Rules.total, Rules.free, Rules.lastSteps]
    generalize M.readings = r
    try simp only [floor_neg, floor_neg_add_one, floor_one, floor_zero, ceil_one, add_zero, and_true, true_and, ← sub_eq_add_neg,
      ← add_sub_assoc, neg_neg, ← add_assoc]
    try
      constructor
      all_goals
        intro h
        try casesm* _ ∧ _
        repeat' apply And.intro
        all_goals first | trivial | assumption | linarith
  cost M := by
    simp only [Model.objectives, pypsaGlobalConstraintCo2EqModel, Rules.co2Eq, Readings.expectedTotal, Option.toList, List.append_nil, List.map_cons,
      List.map_nil, List.sum_cons, List.sum_nil,
      r_var, r_par, r_agg, r_fin, r_neg, r_mul, r_div, r_add, r_nil, r_cons, r_shift, r_evalT, r_allsum, r_scen, r_tsum]
    try generalize M.readings = r
    try simp only [add_zero, add_assoc, mul_comm]
  sends := by
    intro port fs h field e he
    simp only [Rules.co2Eq, List.mem_cons, List.not_mem_nil, or_false, Prod.mk.injEq] at h
    try casesm* _ ∨ _
    all_goals
      try casesm* _ ∧ _
      subst_vars
      simp only [List.mem_cons, List.not_mem_nil, or_false, Prod.mk.injEq] at he
      try casesm* _ ∧ _
      subst_vars
      first
        | rfl
        | exact ⟨_, rfl, fun M t s => by
            try simp only [r_var, r_par, r_agg, r_fin, r_neg, r_mul, r_div, r_add, r_nil, r_cons, r_shift, r_evalT, r_allsum, r_scen, r_tsum]
            try ring⟩

end Verif.Shipped
