import Verif.Model.Trajectory
/-! # Specification: pictures of trajectories -/

namespace Pgkyl.Spec
open V2c

/-- A trajectory: the times and the positions. -/
structure Track (F : Type) where
  time : List F
  positions : List (F × F × F)

/-- A dataset holds a trajectory: one row per time, the first three components are the position. -/
structure HoldsTrack {F : Type} (d : GData F) (tr : Track F) : Prop where
  time : ∃ t rest, d.grid = some (t :: rest) ∧ t.data = tr.time
  values : ∃ v nc, d.values = some v ∧ v.shape = [tr.positions.length, nc] ∧ 3 ≤ nc ∧ (d.numComps = 6 → 6 ≤ nc) ∧
    (∀ (i k : Nat), i < tr.positions.length → k < nc → ∃ x, v.get? [i, k] = some x) ∧
    ∀ (j : Nat) (p : F × F × F), tr.positions[j]? = some p →
      v.get? [j, 0] = some p.1 ∧ v.get? [j, 1] = some p.2.1 ∧ v.get? [j, 2] = some p.2.2

/-- A number lies strictly between the limits given. -/
def Between {F : Type} [LT F] (l : Option F × Option F) (x : F) : Prop := (∀ a, l.1 = some a → a < x) ∧ ∀ b, l.2 = some b → x < b

/-- A position lies inside the limits. -/
def InLimits {F : Type} [LT F] (l : Limits F) (p : F × F × F) : Prop := Between l.x p.1 ∧ Between l.y p.2.1 ∧ Between l.z p.2.2

/-- A point is seen: no coordinate is hidden. -/
def Seen {F : Type} (q : Pt F) : Prop := q.x ≠ none ∧ q.y ≠ none ∧ q.z ≠ none

/-- The point `q` of a picture stands for the position `p`: it is there if `p` lies inside the limits and not seen otherwise. -/
def Stands {F : Type} [LT F] (l : Limits F) (p : F × F × F) (q : Pt F) : Prop :=
  (InLimits l p → q = ⟨some p.1, some p.2.1, some p.2.2⟩) ∧ (¬ InLimits l p → ¬ Seen q)

/-- A curve shows a trajectory with position `t` marked. -/
structure Shows {F : Type} [LT F] (l : Limits F) (tr : Track F) (t : Nat) (c : Curve F) : Prop where
  length : c.points.length = tr.positions.length
  points : ∀ (j : Nat) (p : F × F × F), tr.positions[j]? = some p → ∃ q, c.points[j]? = some q ∧ Stands l p q
  mark : c.points[t]? = some c.mark

/-- What a picture of trajectories shows at position `t`: one curve for each of them in their order, coloured in turn, the time of the
last one, and the limits asked for. -/
structure Depicts {F : Type} [LT F] (l : Limits F) (tracks : List (Track F)) (t : Nat) (p : Scene F) : Prop where
  curves : p.curves.length = tracks.length
  each : ∀ (k : Nat) (tr : Track F), tracks[k]? = some tr → ∃ c, p.curves[k]? = some c ∧ c.color = k % 10 ∧ Shows l tr t c
  time : ∀ tr, tracks.getLast? = some tr → tr.time[t]? = some p.time
  limits : p.limits = l

end Pgkyl.Spec
