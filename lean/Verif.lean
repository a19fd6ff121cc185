import Verif.Model.Space
import Verif.Model.Misc
import Verif.Model.Matrix
import Verif.Props.Movement
import Verif.Props.Vector
import Verif.Props.Vector2
import Verif.Props.Matrix
import Verif.Props.Trig
import Verif.Props.Quat
import Verif.Props.Rotation
import Verif.Props.Plane
import Verif.Props.Compose
import Verif.Props.Projection
import Verif.Props.Decompose
import Verif.Props.Slerp
import Verif.Props.Operators
import Verif.Lemmas.F32Val
import Verif.Props.Bits
import Verif.Props.Compare
import Verif.Lemmas.Integral
import Verif.Props.Range
import Verif.Props.Arith
import Verif.Props.Rounding
import Verif.Model.LoadStore
import Verif.Model.Convert
import Verif.Props.LoadStore
import Verif.Props.Convert
import Verif.Props.Half
import Verif.Model.Collision
import Verif.Model.CollisionBox
import Verif.Spec.Geometry
import Verif.Lemmas.Geo
import Verif.Lemmas.RealGeo
import Verif.Props.CollisionSphere
import Verif.Props.CollisionBox
import Verif.Model.CollisionOBB
import Verif.Model.CollisionTri
import Verif.Model.CollisionFrustum
import Verif.Lemmas.RealRot
import Verif.Lemmas.Geo2
import Verif.Lemmas.SAT
import Verif.Lemmas.Polytope
import Verif.Lemmas.OBBSat
import Verif.Props.CollisionOBB
import Verif.Props.CollisionSAT
import Verif.Lemmas.FrustumPoly
import Verif.Lemmas.Geo3
import Verif.Lemmas.PolySat
import Verif.Props.CollisionPlane
import Verif.Props.CollisionFrustum
import Verif.Props.CollisionProj
import Verif.Props.CollisionFrustumSat
import Verif.Props.CollisionFrustumFr
import Verif.Props.CollisionFrustumTri
import Verif.Lemmas.Nearest
import Verif.Props.CollisionFrustumSphere
import Verif.Props.CollisionFrustumRest
import Verif.Lemmas.SphereTri
import Verif.Props.CollisionSphereTri
import Verif.Props.CollisionBoxTri
import Verif.Props.CollisionRay
import Verif.Props.CollisionRayTri
import Verif.Props.CollisionTransform
import Verif.Props.CollisionPoints
import Verif.Props.CollisionTriTri
import Verif.Props.CollisionFrustumRay
import Verif.Spec.Rounding
import Verif.Lemmas.FErr
import Verif.Props.Float
import Verif.Props.FloatLen
import Verif.Lemmas.FMono
import Verif.Props.FloatCollision
import Verif.Props.FloatBounds
import Verif.Props.FloatSphere
import Verif.Model.Exp
import Verif.Lemmas.ExpPoly
import Verif.Lemmas.ExpLane
import Verif.Lemmas.ExpErr
import Verif.Props.FloatExp
import Verif.Props.FloatHyp
import Verif.Model.Est
import Verif.Props.Angles
import Verif.Props.FloatEst
import Verif.Props.Preds
import Verif.Props.FloatUnit
import Verif.Props.FloatMod
import Verif.Props.CollisionConv
import Verif.Props.Tan
import Verif.Props.Squad
import Verif.Props.SquadNoi
import Verif.Props.FloatTrig
import Verif.Props.FloatArc
import Verif.Props.FloatAtan
import Verif.Props.NanProp
import Verif.Model.LaneAccess
import Verif.Props.LaneAccess
import Verif.Props.FloatAngle
import Verif.Lemmas.TanEstPoly
import Verif.Props.FloatEst2
import Verif.Lemmas.RotForm
import Verif.Props.FloatRot
import Verif.Lemmas.VRel
import Verif.Props.FloatMat
import Verif.Props.FloatInterp
import Verif.Props.FloatGeom
import Verif.Lemmas.FRel
import Verif.Props.FloatProj
import Verif.Props.FloatView
import Verif.Props.Repro
import Verif.Lemmas.FExact
import Verif.Lemmas.FExactV
import Verif.Lemmas.FExactM
import Verif.Props.FloatExact
import Verif.Lemmas.FSym
import Verif.Props.FloatSym
import Verif.Props.FloatAgree
import Verif.Props.FloatNaN
import Verif.Props.FloatGrow
import Verif.Props.FloatEnds
import Verif.Props.FloatAxis
import Verif.Props.FloatDrift
import Verif.Props.FloatDriftM
import Verif.Props.FloatSum
import Verif.Props.FloatObb
import Verif.Props.FloatBoxSphere
import Verif.Props.FloatObbSphere
import Verif.Props.FloatContainsSphere
import Verif.Props.FloatSix
import Verif.Props.FloatMerge
import Verif.Props.FloatLine
import Verif.Props.FloatConv
import Verif.Props.FloatSphereT
import Verif.Props.FloatSphereD
import Verif.Props.FloatObbD
import Verif.Props.FloatBoxD
import Verif.Props.FloatCorners
import Verif.Props.FloatTriIn
import Verif.Props.FloatFrusIn
