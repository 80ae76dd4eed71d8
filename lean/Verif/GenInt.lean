/- Generated by tools/gen.py. -/
import Verif.Gen.IIvec2
import Verif.Gen.IIvec3
import Verif.Gen.IIvec4
import Verif.Gen.ISrcIvec2
import Verif.Gen.ISrcIvec3
import Verif.Gen.ISrcIvec4
import Verif.Gen.IStructIvec2
import Verif.Gen.IStructIvec3
import Verif.Gen.IStructIvec4
import Verif.Gen.IUtil
