/- Generated by tools/gen.py. -/
import Verif.Gen.Aabb2d
import Verif.Gen.Affine
import Verif.Gen.Affine2d
import Verif.Gen.Affine2dPost
import Verif.Gen.AffineMat
import Verif.Gen.AffinePost
import Verif.Gen.AffinePre
import Verif.Gen.Bezier
import Verif.Gen.Box
import Verif.Gen.Cam
import Verif.Gen.ClipspaceOrthoLhNo
import Verif.Gen.ClipspaceOrthoLhZo
import Verif.Gen.ClipspaceOrthoRhNo
import Verif.Gen.ClipspaceOrthoRhZo
import Verif.Gen.ClipspacePersp
import Verif.Gen.ClipspacePerspLhNo
import Verif.Gen.ClipspacePerspLhZo
import Verif.Gen.ClipspacePerspRhNo
import Verif.Gen.ClipspacePerspRhZo
import Verif.Gen.ClipspaceProjectNo
import Verif.Gen.ClipspaceProjectZo
import Verif.Gen.ClipspaceViewLh
import Verif.Gen.ClipspaceViewLhNo
import Verif.Gen.ClipspaceViewLhZo
import Verif.Gen.ClipspaceViewRh
import Verif.Gen.ClipspaceViewRhNo
import Verif.Gen.ClipspaceViewRhZo
import Verif.Gen.Color
import Verif.Gen.Curve
import Verif.Gen.Ease
import Verif.Gen.Euler
import Verif.Gen.Frustum
import Verif.Gen.HandedEulerToQuatLh
import Verif.Gen.HandedEulerToQuatRh
import Verif.Gen.Mat2
import Verif.Gen.Mat2x3
import Verif.Gen.Mat2x4
import Verif.Gen.Mat3
import Verif.Gen.Mat3x2
import Verif.Gen.Mat3x4
import Verif.Gen.Mat4
import Verif.Gen.Mat4x2
import Verif.Gen.Mat4x3
import Verif.Gen.Noise
import Verif.Gen.Plane
import Verif.Gen.Project
import Verif.Gen.Quat
import Verif.Gen.Ray
import Verif.Gen.Sphere
import Verif.Gen.Util
import Verif.Gen.Vec2
import Verif.Gen.Vec2Ext
import Verif.Gen.Vec3
import Verif.Gen.Vec3Ext
import Verif.Gen.Vec4
import Verif.Gen.Vec4Ext
