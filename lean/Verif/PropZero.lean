import Verif.Layout

/-!
# C01: the records made by `new()`

Every record of `fuse/kernel.rs` has a constructor `new()` that returns `core::mem::zeroed()`
(fuse/kernel.rs:257 and the same line for each record).  In the model it is `{}`.
-/

namespace Fuse

/-- `x` is the record all of whose bytes are zero. -/
def IsZeroed {α : Type} [Wire α] (x : α) : Prop :=
  enc x = List.replicate (Wire.size α) 0 ∧ ∀ y : α, (∀ b ∈ enc y, b = 0) → y = x

theorem IsZeroed.of {α : Type} [Wire α] {x : α} (h : enc x = List.replicate (Wire.size α) 0) : IsZeroed x := by
  refine ⟨h, fun y hy => ?_⟩
  have he : enc y = enc x := by
    rw [h]
    exact List.eq_replicate_iff.2 ⟨Wire.enc_length y, hy⟩
  rw [← Wire.dec_enc y, he, Wire.dec_enc]

/-- The fields a record does not set are zero on the wire: `new()` is the record whose bytes are all zero, for every
record. -/
theorem C01_new_zeroed :
    IsZeroed ({} : FuseAttr) ∧
    IsZeroed ({} : FuseKstatfs) ∧
    IsZeroed ({} : FuseFileLock) ∧
    IsZeroed ({} : FuseEntryOut) ∧
    IsZeroed ({} : FuseForgetIn) ∧
    IsZeroed ({} : FuseForgetOne) ∧
    IsZeroed ({} : FuseBatchForgetIn) ∧
    IsZeroed ({} : FuseGetattrIn) ∧
    IsZeroed ({} : FuseAttrOut) ∧
    IsZeroed ({} : FuseMknodIn) ∧
    IsZeroed ({} : FuseMkdirIn) ∧
    IsZeroed ({} : FuseRenameIn) ∧
    IsZeroed ({} : FuseRename2In) ∧
    IsZeroed ({} : FuseLinkIn) ∧
    IsZeroed ({} : FuseSetattrIn) ∧
    IsZeroed ({} : FuseOpenIn) ∧
    IsZeroed ({} : FuseCreateIn) ∧
    IsZeroed ({} : FuseOpenOut) ∧
    IsZeroed ({} : FuseReleaseIn) ∧
    IsZeroed ({} : FuseFlushIn) ∧
    IsZeroed ({} : FuseReadIn) ∧
    IsZeroed ({} : FuseWriteIn) ∧
    IsZeroed ({} : FuseWriteOut) ∧
    IsZeroed ({} : FuseStatfsOut) ∧
    IsZeroed ({} : FuseFsyncIn) ∧
    IsZeroed ({} : FuseSetxattrIn) ∧
    IsZeroed ({} : FuseGetxattrIn) ∧
    IsZeroed ({} : FuseGetxattrOut) ∧
    IsZeroed ({} : FuseLkIn) ∧
    IsZeroed ({} : FuseLkOut) ∧
    IsZeroed ({} : FuseAccessIn) ∧
    IsZeroed ({} : FuseInitIn) ∧
    IsZeroed ({} : FuseInitOut) ∧
    IsZeroed ({} : CuseInitIn) ∧
    IsZeroed ({} : CuseInitOut) ∧
    IsZeroed ({} : FuseInterruptIn) ∧
    IsZeroed ({} : FuseBmapIn) ∧
    IsZeroed ({} : FuseBmapOut) ∧
    IsZeroed ({} : FuseIoctlIn) ∧
    IsZeroed ({} : FuseIoctlIovec) ∧
    IsZeroed ({} : FuseIoctlOut) ∧
    IsZeroed ({} : FusePollIn) ∧
    IsZeroed ({} : FusePollOut) ∧
    IsZeroed ({} : FuseNotifyPollWakeupOut) ∧
    IsZeroed ({} : FuseFallocateIn) ∧
    IsZeroed ({} : FuseInHeader) ∧
    IsZeroed ({} : FuseOutHeader) ∧
    IsZeroed ({} : FuseDirent) ∧
    IsZeroed ({} : FuseDirentplus) ∧
    IsZeroed ({} : FuseNotifyInvalInodeOut) ∧
    IsZeroed ({} : FuseNotifyInvalEntryOut) ∧
    IsZeroed ({} : FuseNotifyDeleteOut) ∧
    IsZeroed ({} : FuseNotifyStoreOut) ∧
    IsZeroed ({} : FuseNotifyRetrieveOut) ∧
    IsZeroed ({} : FuseNotifyRetrieveIn) ∧
    IsZeroed ({} : FuseLseekIn) ∧
    IsZeroed ({} : FuseLseekOut) ∧
    IsZeroed ({} : FuseCopyFileRangeIn) ∧
    IsZeroed ({} : FuseSetupmappingIn) ∧
    IsZeroed ({} : FuseRemovemappingIn) ∧
    IsZeroed ({} : FuseRemovemappingOne) ∧
    IsZeroed ({} : FuseSyncfsIn) ∧
    IsZeroed ({} : FuseSecctx) ∧
    IsZeroed ({} : FuseSecctxHeader) ∧
    IsZeroed ({} : FuseCreateInV7p1) ∧
    IsZeroed ({} : FuseMknodInV7p1) ∧
    IsZeroed ({} : FuseSetxattrInV7p1) ∧
    IsZeroed ({} : FuseReadInV7p1) ∧
    IsZeroed ({} : FuseReleaseInV7p1) ∧
    IsZeroed ({} : FuseWriteInV7p1) := by
    refine ⟨.of ?_, .of ?_, .of ?_, .of ?_, .of ?_, .of ?_, .of ?_, .of ?_, .of ?_, .of ?_, .of ?_, .of ?_,
    .of ?_, .of ?_, .of ?_, .of ?_, .of ?_, .of ?_, .of ?_, .of ?_, .of ?_, .of ?_, .of ?_, .of ?_, .of ?_,
    .of ?_, .of ?_, .of ?_, .of ?_, .of ?_, .of ?_, .of ?_, .of ?_, .of ?_, .of ?_, .of ?_, .of ?_, .of ?_,
    .of ?_, .of ?_, .of ?_, .of ?_, .of ?_, .of ?_, .of ?_, .of ?_, .of ?_, .of ?_, .of ?_, .of ?_, .of ?_,
    .of ?_, .of ?_, .of ?_, .of ?_, .of ?_, .of ?_, .of ?_, .of ?_, .of ?_, .of ?_, .of ?_, .of ?_, .of ?_,
    .of ?_, .of ?_, .of ?_, .of ?_, .of ?_, .of ?_⟩ <;> decide +kernel

/-- A record with one field set is not zeroed. -/
example : ¬ IsZeroed ({ mode := 1 } : FuseFallocateIn) := fun h => absurd h.1 (by decide)

end Fuse
