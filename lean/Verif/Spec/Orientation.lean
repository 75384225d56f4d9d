import Verif.Model.Orientation
import Verif.Spec.Geometry
import Verif.Spec.Laser

/-! # Specification of rotations in space -/

namespace Ndt.Spec

noncomputable section

/-- A vector in space. -/
@[ext] structure Vec3 where
  x : ℝ
  y : ℝ
  z : ℝ

/-- Hamilton's product. -/
def qmul (a b : Quat) : Quat :=
  ⟨a.w * b.x + a.x * b.w + a.y * b.z - a.z * b.y,
   a.w * b.y - a.x * b.z + a.y * b.w + a.z * b.x,
   a.w * b.z + a.x * b.y - a.y * b.x + a.z * b.w,
   a.w * b.w - a.x * b.x - a.y * b.y - a.z * b.z⟩

/-- The conjugate. -/
def qconj (q : Quat) : Quat := ⟨-q.x, -q.y, -q.z, q.w⟩

/-- A rotation. -/
def UnitQ (q : Quat) : Prop := q.x ^ 2 + q.y ^ 2 + q.z ^ 2 + q.w ^ 2 = 1

/-- The vector turned by the rotation: q v q*. -/
def rotate (q : Quat) (v : Vec3) : Vec3 :=
  let r := qmul (qmul q ⟨v.x, v.y, v.z, 0⟩) (qconj q)
  ⟨r.x, r.y, r.z⟩

/-- Where a point of the frame of the laser is in the frame of the robot, seen from above. -/
def seenFromAbove (t : Transform3) (v : Vec3) : Point :=
  ⟨t.x + (rotate t.rotation v).x, t.y + (rotate t.rotation v).y⟩

/-- The end of a beam in the frame of the laser. -/
def beamEnd (angle r : ℝ) : Vec3 := ⟨r * Real.cos angle, r * Real.sin angle, 0⟩

/-- How far up the laser's upper side points: 1 for a level laser, -1 for one upside down. -/
def upwards (q : Quat) : ℝ := (rotate q ⟨0, 0, 1⟩).z

/-- First roll about x, then pitch about y, then yaw about z. -/
def rollPitchYaw (roll pitch yaw : ℝ) : Quat :=
  qmul (qmul ⟨0, 0, Real.sin (yaw / 2), Real.cos (yaw / 2)⟩ ⟨0, Real.sin (pitch / 2), 0, Real.cos (pitch / 2)⟩)
    ⟨Real.sin (roll / 2), 0, 0, Real.cos (roll / 2)⟩

end

end Ndt.Spec
