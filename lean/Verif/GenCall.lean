/- Generated by tools/gen.py. -/
import Verif.Gen.SrcGeoms
import Verif.Gen.SrcAffines
import Verif.Gen.SrcQuats
import Verif.Gen.SrcMats
import Verif.Gen.SrcNoises
import Verif.Gen.SrcVecs
