/- Generated by tools/gen.py. -/
import Verif.Gen.StructGeoms
import Verif.Gen.StructAffines
import Verif.Gen.StructQuats
import Verif.Gen.StructMats
import Verif.Gen.StructNoises
import Verif.Gen.StructVecs
