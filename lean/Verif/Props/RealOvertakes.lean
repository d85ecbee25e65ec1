import Verif.Props.RealCollisions
import Verif.Real.PlanOver

/-!
# C62 is false

Without the rule for the tracks (`C68_exceptions`) nothing keeps trains from leaving a track in another
order than they came.
-/

namespace Verif

/-- C62 for a problem -/
def C62_statement (td : Trains) (ts : TrainSets) (tt : Timetable) (b : Built) : Prop :=
  ∀ σ, Feasible b σ → ∀ t t' p x y m dp d dp' d', t ≠ t' → ¬ Paired t t' →
    RunsThen td (Departs ts tt b.dv σ) t p x y m dp d →
    RunsThen td (Departs ts tt b.dv σ) t' p x y m dp' d' → dp < dp' → d < d'

namespace Real

variable {d : Shipped} {delays : List (Int × ℚ)} {D : Int} {sp : CodedNet.Special} {P : CodedNet.Plan}

theorem WithPlan.overtakes (h : WithPlan d delays D sp P) {dmax : ℚ} (h0 : 0 < dmax) (hD : D ≤ dmax)
    {k k' i j y : Nat} {m : List Nat} {dp e dp' e' : Int} (hu : CodedNet.unlike P k k' = true)
    (h1 : d.net.runsThen P k i = some (j, m, y, dp, e))
    (h2 : d.net.runsThen P k' i = some (j, m, y, dp', e')) (hp : dp < dp') (he : e' ≤ e) (cat : Cat) :
    ∃ td ts tt b, buildTimetables d.sheet d.net.stationTable d.net.pathTable = .ok td ∧
      makeInput td d.net.stationTable d.net.pathTable d.start 1 delays = .ok (ts, tt) ∧
      buildProblem ts tt dmax cat = .ok b ∧ ¬ C62_statement td ts tt b := by
  obtain ⟨good, td, b1, hm, K, Ty⟩ := h.planned
  obtain ⟨td', b1', b2⟩ := C64_shipped d h.mem
  obtain ⟨td'', b1'', b3⟩ := C71_shipped d h.mem
  rw [b1] at b1' b1''
  cases b1'
  cases b1''
  obtain ⟨ts, tt, b, hi, hb⟩ := b2 1 delays dmax cat h0.ne'
  obtain ⟨σ, hσ, hd⟩ := ((b3 1 delays dmax cat ts tt b h0 hi hb).1
    (CodedNet.tablePlan d.net P).dep).2 ⟨_, _, _, (CodedNet.Planned.rules K h.against).mono hD⟩
  refine ⟨td, ts, tt, b, b1, hi, hb, fun hk => ?_⟩
  obtain ⟨n1, n2⟩ := CodedNet.unlike_spec K hu
  have := hk σ hσ _ _ _ _ _ _ _ _ _ _ n1 n2 (CodedNet.runsThen_spec K hd h1)
    (CodedNet.runsThen_spec K hd h2) (by exact_mod_cast hp)
  exact absurd he (not_le.2 (by exact_mod_cast this))

/-- **C62** is false: in the first sheet of `solve_real_problem.py`, without delays, there is a solution in
which trains 94766 and 40518 leave `KL` at -3 and 3 and the same track of `KO` at 12 and 11. -/
theorem C62_false (cat : Cat) : ∃ td ts tt b,
    buildTimetables (⟨net, base, "16:00"⟩ : Shipped).sheet net.stationTable net.pathTable = .ok td ∧
    makeInput td net.stationTable net.pathTable "16:00" 1 [] = .ok (ts, tt) ∧
    buildProblem ts tt 40 cat = .ok b ∧ ¬ C62_statement td ts tt b :=
  (withPlan (by simp [shipped]) read_base net_ok base_sheet (tableOK rfl) net_loop
    overPlan_sections overPlan_ok).overtakes (dmax := 40) (by norm_num) (by norm_num) (k := 0) (k' := 5)
    (i := 1) (j := 8) (m := [82, 131, 65, 112]) (y := 15) (dp := -3) (e := 12) (dp' := 3) (e' := 11)
    (by decide +kernel) (by decide +kernel) (by decide +kernel) (by norm_num) (by norm_num) cat

end Real

end Verif
