import Verif.Spec.Parquet
import Verif.Spec.Decoding
import Verif.Model.Format
/-!
# Specification: what a Parquet file holds
-/
namespace CT.Spec
open CT CT.Parquet

/-- The file ends in a footer whose first bytes mean these metadata, if skipped integers have the form `int`. -/
def HoldsMetadataOf (int : Bytes → Prop) (file : Bytes) (fmd : Val) : Prop :=
  ∃ mb p rest, HasFooter file mb ∧ mb = p ++ rest ∧ ∃ d, IsDefault Format.parquetEnv Format.tFileMetaData d ∧
    DecOf int Format.parquetEnv (.value Format.tFileMetaData d fmd) p

/-- The file ends in a footer whose first bytes mean these metadata. -/
def HoldsMetadata (file : Bytes) (fmd : Val) : Prop :=
  ∃ mb p rest, HasFooter file mb ∧ mb = p ++ rest ∧ Decodes Format.parquetEnv Format.tFileMetaData fmd p

/-- The metadata have this version, these schema elements, this number of rows, and were created by this program. -/
def MetadataFields (fmd : Val) (version : BitVec 32) (schema : List Val) (rows : BitVec 64) (created : Option Bytes) : Prop :=
  ∃ groups keys orders alg key, fmd = .struct [.i32 version, .list schema, .i64 rows, groups, keys,
    (match created with | some x => .some (.string x) | none => .none), orders, alg, key]

end CT.Spec
