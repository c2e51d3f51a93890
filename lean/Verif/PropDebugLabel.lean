import Verif.PropDebugSame

/-!
# C70, continued: what stands behind each label
-/

namespace Fuse
open Spec

namespace Spec

/-- The public accessors of two requests of the same type, each with the claim that it returns the same for both. -/
def Labelled : AnyRequest → AnyRequest → List (String × Prop)
  | .access a, .access b => [("node_id", a.nodeId = b.nodeId), ("mask", a.mask = b.mask)]
  | .bmap a, .bmap b => [("node_id", a.nodeId = b.nodeId), ("block", a.block = b.block),
      ("block_size", a.blockSize = b.blockSize)]
  | .copyFileRange a, .copyFileRange b => [("input_node_id", a.inputNodeId = b.inputNodeId),
      ("input_handle", a.inputHandle = b.inputHandle), ("input_offset", a.inputOffset = b.inputOffset),
      ("output_node_id", a.outputNodeId = b.outputNodeId), ("output_handle", a.outputHandle = b.outputHandle),
      ("output_offset", a.outputOffset = b.outputOffset), ("len", a.len = b.len), ("flags", a.flags = b.flags)]
  | .fallocate a, .fallocate b => [("node_id", a.nodeId = b.nodeId), ("handle", a.handle = b.handle),
      ("offset", a.offset = b.offset), ("length", a.length = b.length),
      ("fallocate_flags", a.fallocateFlags = b.fallocateFlags)]
  | .forget a, .forget b => [("items", a.items = b.items)]
  | .fsyncdir a, .fsyncdir b => [("node_id", a.nodeId = b.nodeId), ("handle", a.handle = b.handle),
      ("flags", a.flags = b.flags)]
  | .getlk a, .getlk b => [("node_id", a.nodeId = b.nodeId), ("handle", a.handle = b.handle),
      ("owner", a.owner = b.owner), ("lock_mode", a.lockMode = b.lockMode),
      ("lock_range", a.lockRange = b.lockRange)]
  | .getxattr a, .getxattr b => [("node_id", a.nodeId = b.nodeId), ("size", a.size = b.size),
      ("name", a.name = b.name)]
  | .interrupt a, .interrupt b => [("request_id", a.requestId = b.requestId)]
  | .link a, .link b => [("node_id", a.nodeId = b.nodeId), ("new_parent_id", a.newParentId = b.newParentId),
      ("new_name", a.newName = b.newName)]
  | .listxattr a, .listxattr b => [("node_id", a.nodeId = b.nodeId), ("size", a.size = b.size)]
  | .lookup a, .lookup b => [("parent_id", a.parentId = b.parentId), ("name", a.name = b.name)]
  | .lseek a, .lseek b => [("node_id", a.nodeId = b.nodeId), ("handle", a.handle = b.handle),
      ("offset", a.offset = b.offset), ("whence", a.whence = b.whence)]
  | .mkdir a, .mkdir b => [("parent_id", a.parentId = b.parentId), ("name", a.name = b.name),
      ("mode", a.mode = b.mode), ("umask", a.umask = b.umask)]
  | .opendir a, .opendir b => [("node_id", a.nodeId = b.nodeId), ("flags", a.flags = b.flags),
      ("open_flags", a.openFlags = b.openFlags)]
  | .poll a, .poll b => [("node_id", a.nodeId = b.nodeId), ("poll_handle", a.pollHandle = b.pollHandle),
      ("poll_events", a.pollEvents = b.pollEvents), ("flags", a.flags = b.flags)]
  | .readlink a, .readlink b => [("node_id", a.nodeId = b.nodeId)]
  | .removexattr a, .removexattr b => [("node_id", a.nodeId = b.nodeId), ("name", a.name = b.name)]
  | .rename a, .rename b => [("old_directory_id", a.oldDirectoryId = b.oldDirectoryId),
      ("old_name", a.oldName = b.oldName), ("new_directory_id", a.newDirectoryId = b.newDirectoryId),
      ("new_name", a.newName = b.newName), ("rename_flags", a.renameFlags = b.renameFlags)]
  | .rmdir a, .rmdir b => [("parent_id", a.parentId = b.parentId), ("name", a.name = b.name)]
  | .setattr a, .setattr b => [("node_id", a.nodeId = b.nodeId), ("handle", a.handle = b.handle),
      ("size", a.size = b.size), ("lock_owner", a.lockOwner = b.lockOwner), ("atime", a.atime = b.atime),
      ("atime_now", a.atimeNow = b.atimeNow), ("mtime", a.mtime = b.mtime), ("mtime_now", a.mtimeNow = b.mtimeNow),
      ("ctime", a.ctime = b.ctime), ("mode", a.mode = b.mode), ("user_id", a.userId = b.userId),
      ("group_id", a.groupId = b.groupId)]
  | .setlk a, .setlk b => [("node_id", a.nodeId = b.nodeId), ("handle", a.handle = b.handle),
      ("may_block", a.mayBlock = b.mayBlock), ("owner", a.owner = b.owner), ("lock", a.lock = b.lock),
      ("flags", a.flags = b.flags)]
  | .statfs a, .statfs b => [("node_id", a.nodeId = b.nodeId)]
  | .symlink a, .symlink b => [("parent_id", a.parentId = b.parentId), ("name", a.name = b.name),
      ("content", a.content = b.content)]
  | .unlink a, .unlink b => [("parent_id", a.parentId = b.parentId), ("name", a.name = b.name)]
  | .fuseInit a, .fuseInit b => [("version", a.version = b.version),
      ("max_readahead", a.maxReadahead = b.maxReadahead), ("flags", a.flags = b.flags)]
  | .cuseInit a, .cuseInit b => [("version", a.version = b.version), ("flags", a.flags = b.flags)]
  | .create a, .create b => [("node_id", a.nodeId = b.nodeId), ("name", a.name = b.name),
      ("flags", a.flags = b.flags), ("open_flags", a.openFlags = b.openFlags), ("mode", a.mode = b.mode),
      ("umask", a.umask = b.umask)]
  | .getattr a, .getattr b => [("node_id", a.nodeId = b.nodeId), ("handle", a.handle = b.handle)]
  | .mknod a, .mknod b => [("parent_id", a.parentId = b.parentId), ("name", a.name = b.name),
      ("mode", a.mode = b.mode), ("umask", a.umask = b.umask), ("device_number", a.deviceNumber = b.deviceNumber)]
  | .readdir a, .readdir b => [("node_id", a.nodeId = b.nodeId), ("size", a.size = b.size),
      ("offset", a.offset = b.offset), ("handle", a.handle = b.handle), ("open_flags", a.openFlags = b.openFlags)]
  | .readdirplus a, .readdirplus b => [("node_id", a.nodeId = b.nodeId), ("size", a.size = b.size),
      ("offset", a.offset = b.offset), ("handle", a.handle = b.handle), ("open_flags", a.openFlags = b.openFlags)]
  | .releasedir a, .releasedir b => [("node_id", a.nodeId = b.nodeId), ("handle", a.handle = b.handle),
      ("lock_owner", a.lockOwner = b.lockOwner), ("open_flags", a.openFlags = b.openFlags)]
  | .setxattr a, .setxattr b => [("node_id", a.nodeId = b.nodeId), ("name", a.name = b.name),
      ("flags", a.flags = b.flags), ("setxattr_flags", a.setxattrFlags = b.setxattrFlags),
      ("value", a.value = b.value)]
  | .flush a, .flush b => [("node_id", a.nodeId = b.nodeId), ("handle", a.handle = b.handle),
      ("lock_owner", a.lockOwner = b.lockOwner)]
  | .fsync a, .fsync b => [("node_id", a.nodeId = b.nodeId), ("handle", a.handle = b.handle),
      ("flags", a.flags = b.flags)]
  | .ioctl a, .ioctl b => [("node_id", a.nodeId = b.nodeId), ("handle", a.handle = b.handle),
      ("command", a.command = b.command), ("arg", a.arg = b.arg), ("output_len", a.outputLen = b.outputLen),
      ("flags", a.flags = b.flags), ("input", a.input = b.input)]
  | .open_ a, .open_ b => [("node_id", a.nodeId = b.nodeId), ("flags", a.flags = b.flags),
      ("open_flags", a.openFlags = b.openFlags)]
  | .read a, .read b => [("node_id", a.nodeId = b.nodeId), ("size", a.size = b.size),
      ("offset", a.offset = b.offset), ("handle", a.handle = b.handle), ("lock_owner", a.lockOwner = b.lockOwner),
      ("open_flags", a.openFlags = b.openFlags)]
  | .release a, .release b => [("node_id", a.nodeId = b.nodeId), ("handle", a.handle = b.handle),
      ("lock_owner", a.lockOwner = b.lockOwner), ("open_flags", a.openFlags = b.openFlags)]
  | .write a, .write b => [("node_id", a.nodeId = b.nodeId), ("offset", a.offset = b.offset),
      ("handle", a.handle = b.handle), ("value", a.value = b.value), ("flags", a.flags = b.flags),
      ("lock_owner", a.lockOwner = b.lockOwner), ("open_flags", a.openFlags = b.openFlags)]
  | _, _ => []

/-- The texts `d` and `d'` are of the structure `n`; behind the label of each accessor they have the same value if
and only if the accessor returns the same. -/
def LabelsTell (n : String) (d d' : Dbg) (accessors : List (String × Prop)) : Prop :=
  ∃ ds ds', d = .record n ds ∧ d' = .record n ds' ∧
    ∀ x ∈ accessors, ∃ v v', .field x.1 v ∈ ds ∧ .field x.1 v' ∈ ds' ∧ (v = v' ↔ x.2)

end Spec

theorem ok_iff {α : Type} {x y : α} {a b : Except Fault α} (h : a = .ok x) (h' : b = .ok y) : x = y ↔ a = b :=
  ⟨fun e => by rw [h, h', e], fun e => Except.ok.inj (h.symm.trans (e.trans h'))⟩

theorem AccessRequest.debug_labels {a b : AccessRequest} {d d' : Dbg} (h : a.debug = .ok d)
    (h' : b.debug = .ok d') : LabelsTell "AccessRequest" d d' (Labelled (.access a) (.access b)) := by
  simp only [AccessRequest.debug] at h h'
  refine ⟨_, _, (pure_ok_elim h).symm, (pure_ok_elim h').symm, ?_⟩
  refine List.forall_mem_cons.2 ⟨⟨_, _, .head _,
    .head _, Dbg.id_inj⟩, ?_⟩
  refine List.forall_mem_cons.2 ⟨⟨_, _, .tail _ (.head _),
    .tail _ (.head _), Dbg.u32_inj⟩, ?_⟩
  exact fun x hx => nomatch hx

theorem BmapRequest.debug_labels {a b : BmapRequest} {d d' : Dbg} (h : a.debug = .ok d)
    (h' : b.debug = .ok d') : LabelsTell "BmapRequest" d d' (Labelled (.bmap a) (.bmap b)) := by
  simp only [BmapRequest.debug] at h h'
  obtain ⟨x0, h0, h⟩ := bind_ok_elim h
  obtain ⟨y0, g0, h'⟩ := bind_ok_elim h'
  refine ⟨_, _, (pure_ok_elim h).symm, (pure_ok_elim h').symm, ?_⟩
  refine List.forall_mem_cons.2 ⟨⟨_, _, .head _,
    .head _, Dbg.id_inj.trans (ok_iff h0 g0)⟩, ?_⟩
  refine List.forall_mem_cons.2 ⟨⟨_, _, .tail _ (.head _),
    .tail _ (.head _), Dbg.u64_inj⟩, ?_⟩
  refine List.forall_mem_cons.2 ⟨⟨_, _, .tail _ (.tail _ (.head _)),
    .tail _ (.tail _ (.head _)), Dbg.u32_inj⟩, ?_⟩
  exact fun x hx => nomatch hx

theorem CopyFileRangeRequest.debug_labels {a b : CopyFileRangeRequest} {d d' : Dbg} (h : a.debug = .ok d)
    (h' : b.debug = .ok d') : LabelsTell "CopyFileRangeRequest" d d' (Labelled (.copyFileRange a) (.copyFileRange b)) := by
  simp only [CopyFileRangeRequest.debug] at h h'
  obtain ⟨x0, h0, h⟩ := bind_ok_elim h
  obtain ⟨y0, g0, h'⟩ := bind_ok_elim h'
  obtain ⟨x3, h3, h⟩ := bind_ok_elim h
  obtain ⟨y3, g3, h'⟩ := bind_ok_elim h'
  refine ⟨_, _, (pure_ok_elim h).symm, (pure_ok_elim h').symm, ?_⟩
  refine List.forall_mem_cons.2 ⟨⟨_, _, .head _,
    .head _, Dbg.id_inj.trans (ok_iff h0 g0)⟩, ?_⟩
  refine List.forall_mem_cons.2 ⟨⟨_, _, .tail _ (.head _),
    .tail _ (.head _), Dbg.u64_inj⟩, ?_⟩
  refine List.forall_mem_cons.2 ⟨⟨_, _, .tail _ (.tail _ (.head _)),
    .tail _ (.tail _ (.head _)), Dbg.u64_inj⟩, ?_⟩
  refine List.forall_mem_cons.2 ⟨⟨_, _, .tail _ (.tail _ (.tail _ (.head _))),
    .tail _ (.tail _ (.tail _ (.head _))), Dbg.id_inj.trans (ok_iff h3 g3)⟩, ?_⟩
  refine List.forall_mem_cons.2 ⟨⟨_, _, .tail _ (.tail _ (.tail _ (.tail _ (.head _)))),
    .tail _ (.tail _ (.tail _ (.tail _ (.head _)))), Dbg.u64_inj⟩, ?_⟩
  refine List.forall_mem_cons.2 ⟨⟨_, _, .tail _ (.tail _ (.tail _ (.tail _ (.tail _ (.head _))))),
    .tail _ (.tail _ (.tail _ (.tail _ (.tail _ (.head _))))), Dbg.u64_inj⟩, ?_⟩
  refine List.forall_mem_cons.2 ⟨⟨_, _, .tail _ (.tail _ (.tail _ (.tail _ (.tail _ (.tail _ (.head _)))))),
    .tail _ (.tail _ (.tail _ (.tail _ (.tail _ (.tail _ (.head _)))))), Dbg.u64_inj⟩, ?_⟩
  refine List.forall_mem_cons.2 ⟨⟨_, _, .tail _ (.tail _ (.tail _ (.tail _ (.tail _ (.tail _ (.tail _ (.head _))))))),
    .tail _ (.tail _ (.tail _ (.tail _ (.tail _ (.tail _ (.tail _ (.head _))))))), Dbg.flags64_inj (t := .copyFileRangeRequest) rfl⟩, ?_⟩
  exact fun x hx => nomatch hx

theorem FallocateRequest.debug_labels {a b : FallocateRequest} {d d' : Dbg} (h : a.debug = .ok d)
    (h' : b.debug = .ok d') : LabelsTell "FallocateRequest" d d' (Labelled (.fallocate a) (.fallocate b)) := by
  simp only [FallocateRequest.debug] at h h'
  obtain ⟨x0, h0, h⟩ := bind_ok_elim h
  obtain ⟨y0, g0, h'⟩ := bind_ok_elim h'
  refine ⟨_, _, (pure_ok_elim h).symm, (pure_ok_elim h').symm, ?_⟩
  refine List.forall_mem_cons.2 ⟨⟨_, _, .head _,
    .head _, Dbg.id_inj.trans (ok_iff h0 g0)⟩, ?_⟩
  refine List.forall_mem_cons.2 ⟨⟨_, _, .tail _ (.head _),
    .tail _ (.head _), Dbg.u64_inj⟩, ?_⟩
  refine List.forall_mem_cons.2 ⟨⟨_, _, .tail _ (.tail _ (.head _)),
    .tail _ (.tail _ (.head _)), Dbg.u64_inj⟩, ?_⟩
  refine List.forall_mem_cons.2 ⟨⟨_, _, .tail _ (.tail _ (.tail _ (.head _))),
    .tail _ (.tail _ (.tail _ (.head _))), Dbg.u64_inj⟩, ?_⟩
  refine List.forall_mem_cons.2 ⟨⟨_, _, .tail _ (.tail _ (.tail _ (.tail _ (.head _)))),
    .tail _ (.tail _ (.tail _ (.tail _ (.head _)))), Dbg.hex32_inj⟩, ?_⟩
  exact fun x hx => nomatch hx

theorem ForgetRequest.debug_labels {a b : ForgetRequest} {d d' : Dbg} (h : a.debug = .ok d)
    (h' : b.debug = .ok d') : LabelsTell "ForgetRequest" d d' (Labelled (.forget a) (.forget b)) := by
  simp only [ForgetRequest.debug] at h h'
  refine ⟨_, _, (pure_ok_elim h).symm, (pure_ok_elim h').symm, ?_⟩
  refine List.forall_mem_cons.2 ⟨⟨_, _, .head _,
    .head _, Dbg.items_inj⟩, ?_⟩
  exact fun x hx => nomatch hx

theorem FsyncdirRequest.debug_labels {a b : FsyncdirRequest} {d d' : Dbg} (h : a.debug = .ok d)
    (h' : b.debug = .ok d') : LabelsTell "FsyncdirRequest" d d' (Labelled (.fsyncdir a) (.fsyncdir b)) := by
  simp only [FsyncdirRequest.debug] at h h'
  obtain ⟨x0, h0, h⟩ := bind_ok_elim h
  obtain ⟨y0, g0, h'⟩ := bind_ok_elim h'
  refine ⟨_, _, (pure_ok_elim h).symm, (pure_ok_elim h').symm, ?_⟩
  refine List.forall_mem_cons.2 ⟨⟨_, _, .head _,
    .head _, Dbg.id_inj.trans (ok_iff h0 g0)⟩, ?_⟩
  refine List.forall_mem_cons.2 ⟨⟨_, _, .tail _ (.head _),
    .tail _ (.head _), Dbg.u64_inj⟩, ?_⟩
  refine List.forall_mem_cons.2 ⟨⟨_, _, .tail _ (.tail _ (.head _)),
    .tail _ (.tail _ (.head _)), Dbg.flags32_inj (t := .fsyncdirRequest) rfl⟩, ?_⟩
  exact fun x hx => nomatch hx

theorem GetlkRequest.debug_labels {p : Platform} {a b : GetlkRequest} {d d' : Dbg} (h : a.debug p = .ok d)
    (h' : b.debug p = .ok d') : LabelsTell "GetlkRequest" d d' (Labelled (.getlk a) (.getlk b)) := by
  simp only [GetlkRequest.debug] at h h'
  obtain ⟨x0, h0, h⟩ := bind_ok_elim h
  obtain ⟨y0, g0, h'⟩ := bind_ok_elim h'
  refine ⟨_, _, (pure_ok_elim h).symm, (pure_ok_elim h').symm, ?_⟩
  refine List.forall_mem_cons.2 ⟨⟨_, _, .head _,
    .head _, Dbg.id_inj.trans (ok_iff h0 g0)⟩, ?_⟩
  refine List.forall_mem_cons.2 ⟨⟨_, _, .tail _ (.head _),
    .tail _ (.head _), Dbg.u64_inj⟩, ?_⟩
  refine List.forall_mem_cons.2 ⟨⟨_, _, .tail _ (.tail _ (.head _)),
    .tail _ (.tail _ (.head _)), Dbg.hex64_inj⟩, ?_⟩
  refine List.forall_mem_cons.2 ⟨⟨_, _, .tail _ (.tail _ (.tail _ (.head _))),
    .tail _ (.tail _ (.tail _ (.head _))), Dbg.lockMode_inj⟩, ?_⟩
  refine List.forall_mem_cons.2 ⟨⟨_, _, .tail _ (.tail _ (.tail _ (.tail _ (.head _)))),
    .tail _ (.tail _ (.tail _ (.tail _ (.head _)))), Dbg.lockRange_inj⟩, ?_⟩
  exact fun x hx => nomatch hx

theorem GetxattrRequest.debug_labels {a b : GetxattrRequest} {d d' : Dbg} (h : a.debug = .ok d)
    (h' : b.debug = .ok d') : LabelsTell "GetxattrRequest" d d' (Labelled (.getxattr a) (.getxattr b)) := by
  simp only [GetxattrRequest.debug] at h h'
  obtain ⟨x0, h0, h⟩ := bind_ok_elim h
  obtain ⟨y0, g0, h'⟩ := bind_ok_elim h'
  refine ⟨_, _, (pure_ok_elim h).symm, (pure_ok_elim h').symm, ?_⟩
  refine List.forall_mem_cons.2 ⟨⟨_, _, .head _,
    .head _, Dbg.id_inj.trans (ok_iff h0 g0)⟩, ?_⟩
  refine List.forall_mem_cons.2 ⟨⟨_, _, .tail _ (.head _),
    .tail _ (.head _), Dbg.size_inj⟩, ?_⟩
  refine List.forall_mem_cons.2 ⟨⟨_, _, .tail _ (.tail _ (.head _)),
    .tail _ (.tail _ (.head _)), Dbg.cstr_inj⟩, ?_⟩
  exact fun x hx => nomatch hx

theorem InterruptRequest.debug_labels {a b : InterruptRequest} {d d' : Dbg} (h : a.debug = .ok d)
    (h' : b.debug = .ok d') : LabelsTell "InterruptRequest" d d' (Labelled (.interrupt a) (.interrupt b)) := by
  simp only [InterruptRequest.debug] at h h'
  obtain ⟨x0, h0, h⟩ := bind_ok_elim h
  obtain ⟨y0, g0, h'⟩ := bind_ok_elim h'
  refine ⟨_, _, (pure_ok_elim h).symm, (pure_ok_elim h').symm, ?_⟩
  refine List.forall_mem_cons.2 ⟨⟨_, _, .head _,
    .head _, Dbg.id_inj.trans (ok_iff h0 g0)⟩, ?_⟩
  exact fun x hx => nomatch hx

theorem LinkRequest.debug_labels {a b : LinkRequest} {d d' : Dbg} (h : a.debug = .ok d)
    (h' : b.debug = .ok d') : LabelsTell "LinkRequest" d d' (Labelled (.link a) (.link b)) := by
  simp only [LinkRequest.debug] at h h'
  refine ⟨_, _, (pure_ok_elim h).symm, (pure_ok_elim h').symm, ?_⟩
  refine List.forall_mem_cons.2 ⟨⟨_, _, .head _,
    .head _, Dbg.id_inj⟩, ?_⟩
  refine List.forall_mem_cons.2 ⟨⟨_, _, .tail _ (.head _),
    .tail _ (.head _), Dbg.id_inj⟩, ?_⟩
  refine List.forall_mem_cons.2 ⟨⟨_, _, .tail _ (.tail _ (.head _)),
    .tail _ (.tail _ (.head _)), Dbg.name_inj⟩, ?_⟩
  exact fun x hx => nomatch hx

theorem ListxattrRequest.debug_labels {a b : ListxattrRequest} {d d' : Dbg} (h : a.debug = .ok d)
    (h' : b.debug = .ok d') : LabelsTell "ListxattrRequest" d d' (Labelled (.listxattr a) (.listxattr b)) := by
  simp only [ListxattrRequest.debug] at h h'
  obtain ⟨x0, h0, h⟩ := bind_ok_elim h
  obtain ⟨y0, g0, h'⟩ := bind_ok_elim h'
  refine ⟨_, _, (pure_ok_elim h).symm, (pure_ok_elim h').symm, ?_⟩
  refine List.forall_mem_cons.2 ⟨⟨_, _, .head _,
    .head _, Dbg.id_inj.trans (ok_iff h0 g0)⟩, ?_⟩
  refine List.forall_mem_cons.2 ⟨⟨_, _, .tail _ (.head _),
    .tail _ (.head _), Dbg.size_inj⟩, ?_⟩
  exact fun x hx => nomatch hx

theorem LookupRequest.debug_labels {a b : LookupRequest} {d d' : Dbg} (h : a.debug = .ok d)
    (h' : b.debug = .ok d') : LabelsTell "LookupRequest" d d' (Labelled (.lookup a) (.lookup b)) := by
  simp only [LookupRequest.debug] at h h'
  refine ⟨_, _, (pure_ok_elim h).symm, (pure_ok_elim h').symm, ?_⟩
  refine List.forall_mem_cons.2 ⟨⟨_, _, .head _,
    .head _, Dbg.id_inj⟩, ?_⟩
  refine List.forall_mem_cons.2 ⟨⟨_, _, .tail _ (.head _),
    .tail _ (.head _), Dbg.name_inj⟩, ?_⟩
  exact fun x hx => nomatch hx

theorem LseekRequest.debug_labels {a b : LseekRequest} {d d' : Dbg} (h : a.debug = .ok d)
    (h' : b.debug = .ok d') : LabelsTell "LseekRequest" d d' (Labelled (.lseek a) (.lseek b)) := by
  simp only [LseekRequest.debug] at h h'
  refine ⟨_, _, (pure_ok_elim h).symm, (pure_ok_elim h').symm, ?_⟩
  refine List.forall_mem_cons.2 ⟨⟨_, _, .head _,
    .head _, Dbg.id_inj⟩, ?_⟩
  refine List.forall_mem_cons.2 ⟨⟨_, _, .tail _ (.head _),
    .tail _ (.head _), Dbg.u64_inj⟩, ?_⟩
  refine List.forall_mem_cons.2 ⟨⟨_, _, .tail _ (.tail _ (.head _)),
    .tail _ (.tail _ (.head _)), Dbg.u64_inj⟩, ?_⟩
  refine List.forall_mem_cons.2 ⟨⟨_, _, .tail _ (.tail _ (.tail _ (.head _))),
    .tail _ (.tail _ (.tail _ (.head _))), Dbg.whence_inj⟩, ?_⟩
  exact fun x hx => nomatch hx

theorem MkdirRequest.debug_labels {a b : MkdirRequest} {d d' : Dbg} (h : a.debug = .ok d)
    (h' : b.debug = .ok d') : LabelsTell "MkdirRequest" d d' (Labelled (.mkdir a) (.mkdir b)) := by
  simp only [MkdirRequest.debug] at h h'
  refine ⟨_, _, (pure_ok_elim h).symm, (pure_ok_elim h').symm, ?_⟩
  refine List.forall_mem_cons.2 ⟨⟨_, _, .head _,
    .head _, Dbg.id_inj⟩, ?_⟩
  refine List.forall_mem_cons.2 ⟨⟨_, _, .tail _ (.head _),
    .tail _ (.head _), Dbg.name_inj⟩, ?_⟩
  refine List.forall_mem_cons.2 ⟨⟨_, _, .tail _ (.tail _ (.head _)),
    .tail _ (.tail _ (.head _)), Dbg.mode_inj⟩, ?_⟩
  refine List.forall_mem_cons.2 ⟨⟨_, _, .tail _ (.tail _ (.tail _ (.head _))),
    .tail _ (.tail _ (.tail _ (.head _))), Dbg.octal_inj⟩, ?_⟩
  exact fun x hx => nomatch hx

theorem OpendirRequest.debug_labels {a b : OpendirRequest} {d d' : Dbg} (h : a.debug = .ok d)
    (h' : b.debug = .ok d') : LabelsTell "OpendirRequest" d d' (Labelled (.opendir a) (.opendir b)) := by
  simp only [OpendirRequest.debug] at h h'
  obtain ⟨x0, h0, h⟩ := bind_ok_elim h
  obtain ⟨y0, g0, h'⟩ := bind_ok_elim h'
  refine ⟨_, _, (pure_ok_elim h).symm, (pure_ok_elim h').symm, ?_⟩
  refine List.forall_mem_cons.2 ⟨⟨_, _, .head _,
    .head _, Dbg.id_inj.trans (ok_iff h0 g0)⟩, ?_⟩
  refine List.forall_mem_cons.2 ⟨⟨_, _, .tail _ (.head _),
    .tail _ (.head _), Dbg.flags32_inj (t := .opendirRequest) rfl⟩, ?_⟩
  refine List.forall_mem_cons.2 ⟨⟨_, _, .tail _ (.tail _ (.head _)),
    .tail _ (.tail _ (.head _)), Dbg.hex32_inj⟩, ?_⟩
  exact fun x hx => nomatch hx

theorem PollRequest.debug_labels {a b : PollRequest} {d d' : Dbg} (h : a.debug = .ok d)
    (h' : b.debug = .ok d') : LabelsTell "PollRequest" d d' (Labelled (.poll a) (.poll b)) := by
  simp only [PollRequest.debug] at h h'
  obtain ⟨x0, h0, h⟩ := bind_ok_elim h
  obtain ⟨y0, g0, h'⟩ := bind_ok_elim h'
  refine ⟨_, _, (pure_ok_elim h).symm, (pure_ok_elim h').symm, ?_⟩
  refine List.forall_mem_cons.2 ⟨⟨_, _, .head _,
    .head _, Dbg.id_inj.trans (ok_iff h0 g0)⟩, ?_⟩
  refine List.forall_mem_cons.2 ⟨⟨_, _, .tail _ (.head _),
    .tail _ (.head _), Dbg.u64_inj⟩, ?_⟩
  refine List.forall_mem_cons.2 ⟨⟨_, _, .tail _ (.tail _ (.head _)),
    .tail _ (.tail _ (.head _)), Dbg.hex32_inj⟩, ?_⟩
  refine List.forall_mem_cons.2 ⟨⟨_, _, .tail _ (.tail _ (.tail _ (.head _))),
    .tail _ (.tail _ (.tail _ (.head _))), Dbg.flags32_inj (t := .pollRequest) rfl⟩, ?_⟩
  exact fun x hx => nomatch hx

theorem ReadlinkRequest.debug_labels {a b : ReadlinkRequest} {d d' : Dbg} (h : a.debug = .ok d)
    (h' : b.debug = .ok d') : LabelsTell "ReadlinkRequest" d d' (Labelled (.readlink a) (.readlink b)) := by
  simp only [ReadlinkRequest.debug] at h h'
  refine ⟨_, _, (pure_ok_elim h).symm, (pure_ok_elim h').symm, ?_⟩
  refine List.forall_mem_cons.2 ⟨⟨_, _, .head _,
    .head _, Dbg.id_inj⟩, ?_⟩
  exact fun x hx => nomatch hx

theorem RemovexattrRequest.debug_labels {a b : RemovexattrRequest} {d d' : Dbg} (h : a.debug = .ok d)
    (h' : b.debug = .ok d') : LabelsTell "RemovexattrRequest" d d' (Labelled (.removexattr a) (.removexattr b)) := by
  simp only [RemovexattrRequest.debug] at h h'
  obtain ⟨x0, h0, h⟩ := bind_ok_elim h
  obtain ⟨y0, g0, h'⟩ := bind_ok_elim h'
  refine ⟨_, _, (pure_ok_elim h).symm, (pure_ok_elim h').symm, ?_⟩
  refine List.forall_mem_cons.2 ⟨⟨_, _, .head _,
    .head _, Dbg.id_inj.trans (ok_iff h0 g0)⟩, ?_⟩
  refine List.forall_mem_cons.2 ⟨⟨_, _, .tail _ (.head _),
    .tail _ (.head _), Dbg.cstr_inj⟩, ?_⟩
  exact fun x hx => nomatch hx

theorem RenameRequest.debug_labels {a b : RenameRequest} {d d' : Dbg} (h : a.debug = .ok d)
    (h' : b.debug = .ok d') : LabelsTell "RenameRequest" d d' (Labelled (.rename a) (.rename b)) := by
  simp only [RenameRequest.debug] at h h'
  refine ⟨_, _, (pure_ok_elim h).symm, (pure_ok_elim h').symm, ?_⟩
  refine List.forall_mem_cons.2 ⟨⟨_, _, .head _,
    .head _, Dbg.id_inj⟩, ?_⟩
  refine List.forall_mem_cons.2 ⟨⟨_, _, .tail _ (.head _),
    .tail _ (.head _), Dbg.name_inj⟩, ?_⟩
  refine List.forall_mem_cons.2 ⟨⟨_, _, .tail _ (.tail _ (.head _)),
    .tail _ (.tail _ (.head _)), Dbg.id_inj⟩, ?_⟩
  refine List.forall_mem_cons.2 ⟨⟨_, _, .tail _ (.tail _ (.tail _ (.head _))),
    .tail _ (.tail _ (.tail _ (.head _))), Dbg.name_inj⟩, ?_⟩
  refine List.forall_mem_cons.2 ⟨⟨_, _, .tail _ (.tail _ (.tail _ (.tail _ (.head _)))),
    .tail _ (.tail _ (.tail _ (.tail _ (.head _)))), Dbg.hex32_inj⟩, ?_⟩
  exact fun x hx => nomatch hx

theorem RmdirRequest.debug_labels {a b : RmdirRequest} {d d' : Dbg} (h : a.debug = .ok d)
    (h' : b.debug = .ok d') : LabelsTell "RmdirRequest" d d' (Labelled (.rmdir a) (.rmdir b)) := by
  simp only [RmdirRequest.debug] at h h'
  refine ⟨_, _, (pure_ok_elim h).symm, (pure_ok_elim h').symm, ?_⟩
  refine List.forall_mem_cons.2 ⟨⟨_, _, .head _,
    .head _, Dbg.id_inj⟩, ?_⟩
  refine List.forall_mem_cons.2 ⟨⟨_, _, .tail _ (.head _),
    .tail _ (.head _), Dbg.name_inj⟩, ?_⟩
  exact fun x hx => nomatch hx

theorem SetattrRequest.debug_labels {a b : SetattrRequest} {d d' : Dbg} (h : a.debug = .ok d)
    (h' : b.debug = .ok d') : LabelsTell "SetattrRequest" d d' (Labelled (.setattr a) (.setattr b)) := by
  simp only [SetattrRequest.debug] at h h'
  obtain ⟨x0, h0, h⟩ := bind_ok_elim h
  obtain ⟨y0, g0, h'⟩ := bind_ok_elim h'
  obtain ⟨x4, h4, h⟩ := bind_ok_elim h
  obtain ⟨y4, g4, h'⟩ := bind_ok_elim h'
  obtain ⟨x6, h6, h⟩ := bind_ok_elim h
  obtain ⟨y6, g6, h'⟩ := bind_ok_elim h'
  obtain ⟨x8, h8, h⟩ := bind_ok_elim h
  obtain ⟨y8, g8, h'⟩ := bind_ok_elim h'
  refine ⟨_, _, (pure_ok_elim h).symm, (pure_ok_elim h').symm, ?_⟩
  refine List.forall_mem_cons.2 ⟨⟨_, _, .head _,
    .head _, Dbg.id_inj.trans (ok_iff h0 g0)⟩, ?_⟩
  refine List.forall_mem_cons.2 ⟨⟨_, _, .tail _ (.head _),
    .tail _ (.head _), Dbg.option_inj Dbg.u64_inj⟩, ?_⟩
  refine List.forall_mem_cons.2 ⟨⟨_, _, .tail _ (.tail _ (.head _)),
    .tail _ (.tail _ (.head _)), Dbg.option_inj Dbg.u64_inj⟩, ?_⟩
  refine List.forall_mem_cons.2 ⟨⟨_, _, .tail _ (.tail _ (.tail _ (.head _))),
    .tail _ (.tail _ (.tail _ (.head _))), Dbg.option_inj Dbg.hex64_inj⟩, ?_⟩
  refine List.forall_mem_cons.2 ⟨⟨_, _, .tail _ (.tail _ (.tail _ (.tail _ (.head _)))),
    .tail _ (.tail _ (.tail _ (.tail _ (.head _)))), (Dbg.option_inj Dbg.time_inj).trans (ok_iff h4 g4)⟩, ?_⟩
  refine List.forall_mem_cons.2 ⟨⟨_, _, .tail _ (.tail _ (.tail _ (.tail _ (.tail _ (.head _))))),
    .tail _ (.tail _ (.tail _ (.tail _ (.tail _ (.head _))))), Dbg.bool_inj⟩, ?_⟩
  refine List.forall_mem_cons.2 ⟨⟨_, _, .tail _ (.tail _ (.tail _ (.tail _ (.tail _ (.tail _ (.head _)))))),
    .tail _ (.tail _ (.tail _ (.tail _ (.tail _ (.tail _ (.head _)))))), (Dbg.option_inj Dbg.time_inj).trans (ok_iff h6 g6)⟩, ?_⟩
  refine List.forall_mem_cons.2 ⟨⟨_, _, .tail _ (.tail _ (.tail _ (.tail _ (.tail _ (.tail _ (.tail _ (.head _))))))),
    .tail _ (.tail _ (.tail _ (.tail _ (.tail _ (.tail _ (.tail _ (.head _))))))), Dbg.bool_inj⟩, ?_⟩
  refine List.forall_mem_cons.2 ⟨⟨_, _, .tail _ (.tail _ (.tail _ (.tail _ (.tail _ (.tail _ (.tail _ (.tail _ (.head _)))))))),
    .tail _ (.tail _ (.tail _ (.tail _ (.tail _ (.tail _ (.tail _ (.tail _ (.head _)))))))), (Dbg.option_inj Dbg.time_inj).trans (ok_iff h8 g8)⟩, ?_⟩
  refine List.forall_mem_cons.2 ⟨⟨_, _, .tail _ (.tail _ (.tail _ (.tail _ (.tail _ (.tail _ (.tail _ (.tail _ (.tail _ (.head _))))))))),
    .tail _ (.tail _ (.tail _ (.tail _ (.tail _ (.tail _ (.tail _ (.tail _ (.tail _ (.head _))))))))), Dbg.option_inj Dbg.mode_inj⟩, ?_⟩
  refine List.forall_mem_cons.2 ⟨⟨_, _, .tail _ (.tail _ (.tail _ (.tail _ (.tail _ (.tail _ (.tail _ (.tail _ (.tail _ (.tail _ (.head _)))))))))),
    .tail _ (.tail _ (.tail _ (.tail _ (.tail _ (.tail _ (.tail _ (.tail _ (.tail _ (.tail _ (.head _)))))))))), Dbg.option_inj Dbg.u32_inj⟩, ?_⟩
  refine List.forall_mem_cons.2 ⟨⟨_, _, .tail _ (.tail _ (.tail _ (.tail _ (.tail _ (.tail _ (.tail _ (.tail _ (.tail _ (.tail _ (.tail _ (.head _))))))))))),
    .tail _ (.tail _ (.tail _ (.tail _ (.tail _ (.tail _ (.tail _ (.tail _ (.tail _ (.tail _ (.tail _ (.head _))))))))))), Dbg.option_inj Dbg.u32_inj⟩, ?_⟩
  exact fun x hx => nomatch hx

theorem SetlkRequest.debug_labels {p : Platform} {a b : SetlkRequest} {d d' : Dbg} (h : a.debug p = .ok d)
    (h' : b.debug p = .ok d') : LabelsTell "SetlkRequest" d d' (Labelled (.setlk a) (.setlk b)) := by
  simp only [SetlkRequest.debug] at h h'
  obtain ⟨x0, h0, h⟩ := bind_ok_elim h
  obtain ⟨y0, g0, h'⟩ := bind_ok_elim h'
  refine ⟨_, _, (pure_ok_elim h).symm, (pure_ok_elim h').symm, ?_⟩
  refine List.forall_mem_cons.2 ⟨⟨_, _, .head _,
    .head _, Dbg.id_inj.trans (ok_iff h0 g0)⟩, ?_⟩
  refine List.forall_mem_cons.2 ⟨⟨_, _, .tail _ (.head _),
    .tail _ (.head _), Dbg.u64_inj⟩, ?_⟩
  refine List.forall_mem_cons.2 ⟨⟨_, _, .tail _ (.tail _ (.head _)),
    .tail _ (.tail _ (.head _)), Dbg.bool_inj⟩, ?_⟩
  refine List.forall_mem_cons.2 ⟨⟨_, _, .tail _ (.tail _ (.tail _ (.head _))),
    .tail _ (.tail _ (.tail _ (.head _))), Dbg.hex64_inj⟩, ?_⟩
  refine List.forall_mem_cons.2 ⟨⟨_, _, .tail _ (.tail _ (.tail _ (.tail _ (.head _)))),
    .tail _ (.tail _ (.tail _ (.tail _ (.head _)))), Dbg.lock_inj⟩, ?_⟩
  refine List.forall_mem_cons.2 ⟨⟨_, _, .tail _ (.tail _ (.tail _ (.tail _ (.tail _ (.head _))))),
    .tail _ (.tail _ (.tail _ (.tail _ (.tail _ (.head _))))), Dbg.flags32_inj (t := .setlkRequest) rfl⟩, ?_⟩
  exact fun x hx => nomatch hx

theorem StatfsRequest.debug_labels {a b : StatfsRequest} {d d' : Dbg} (h : a.debug = .ok d)
    (h' : b.debug = .ok d') : LabelsTell "StatfsRequest" d d' (Labelled (.statfs a) (.statfs b)) := by
  simp only [StatfsRequest.debug] at h h'
  refine ⟨_, _, (pure_ok_elim h).symm, (pure_ok_elim h').symm, ?_⟩
  refine List.forall_mem_cons.2 ⟨⟨_, _, .head _,
    .head _, Dbg.id_inj⟩, ?_⟩
  exact fun x hx => nomatch hx

theorem SymlinkRequest.debug_labels {a b : SymlinkRequest} {d d' : Dbg} (h : a.debug = .ok d)
    (h' : b.debug = .ok d') : LabelsTell "SymlinkRequest" d d' (Labelled (.symlink a) (.symlink b)) := by
  simp only [SymlinkRequest.debug] at h h'
  refine ⟨_, _, (pure_ok_elim h).symm, (pure_ok_elim h').symm, ?_⟩
  refine List.forall_mem_cons.2 ⟨⟨_, _, .head _,
    .head _, Dbg.id_inj⟩, ?_⟩
  refine List.forall_mem_cons.2 ⟨⟨_, _, .tail _ (.head _),
    .tail _ (.head _), Dbg.name_inj⟩, ?_⟩
  refine List.forall_mem_cons.2 ⟨⟨_, _, .tail _ (.tail _ (.head _)),
    .tail _ (.tail _ (.head _)), Dbg.cstr_inj⟩, ?_⟩
  exact fun x hx => nomatch hx

theorem UnlinkRequest.debug_labels {a b : UnlinkRequest} {d d' : Dbg} (h : a.debug = .ok d)
    (h' : b.debug = .ok d') : LabelsTell "UnlinkRequest" d d' (Labelled (.unlink a) (.unlink b)) := by
  simp only [UnlinkRequest.debug] at h h'
  refine ⟨_, _, (pure_ok_elim h).symm, (pure_ok_elim h').symm, ?_⟩
  refine List.forall_mem_cons.2 ⟨⟨_, _, .head _,
    .head _, Dbg.id_inj⟩, ?_⟩
  refine List.forall_mem_cons.2 ⟨⟨_, _, .tail _ (.head _),
    .tail _ (.head _), Dbg.name_inj⟩, ?_⟩
  exact fun x hx => nomatch hx

theorem FuseInitRequest.debug_labels {a b : FuseInitRequest} {d d' : Dbg} (h : a.debug = .ok d)
    (h' : b.debug = .ok d') : LabelsTell "FuseInitRequest" d d' (Labelled (.fuseInit a) (.fuseInit b)) := by
  simp only [FuseInitRequest.debug] at h h'
  refine ⟨_, _, (pure_ok_elim h).symm, (pure_ok_elim h').symm, ?_⟩
  refine List.forall_mem_cons.2 ⟨⟨_, _, .head _,
    .head _, Dbg.version_inj⟩, ?_⟩
  refine List.forall_mem_cons.2 ⟨⟨_, _, .tail _ (.head _),
    .tail _ (.head _), Dbg.u32_inj⟩, ?_⟩
  refine List.forall_mem_cons.2 ⟨⟨_, _, .tail _ (.tail _ (.head _)),
    .tail _ (.tail _ (.head _)), Dbg.flags64_inj (t := .fuseInit) rfl⟩, ?_⟩
  exact fun x hx => nomatch hx

theorem CuseInitRequest.debug_labels {a b : CuseInitRequest} {d d' : Dbg} (h : a.debug = .ok d)
    (h' : b.debug = .ok d') : LabelsTell "CuseInitRequest" d d' (Labelled (.cuseInit a) (.cuseInit b)) := by
  simp only [CuseInitRequest.debug] at h h'
  refine ⟨_, _, (pure_ok_elim h).symm, (pure_ok_elim h').symm, ?_⟩
  refine List.forall_mem_cons.2 ⟨⟨_, _, .head _,
    .head _, Dbg.version_inj⟩, ?_⟩
  refine List.forall_mem_cons.2 ⟨⟨_, _, .tail _ (.head _),
    .tail _ (.head _), Dbg.flags32_inj (t := .cuseInit) rfl⟩, ?_⟩
  exact fun x hx => nomatch hx

theorem CreateRequest.debug_labels {a b : CreateRequest} {d d' : Dbg} (h : a.debug = .ok d)
    (h' : b.debug = .ok d') : LabelsTell "CreateRequest" d d' (Labelled (.create a) (.create b)) := by
  simp only [CreateRequest.debug] at h h'
  obtain ⟨x0, h0, h⟩ := bind_ok_elim h
  obtain ⟨y0, g0, h'⟩ := bind_ok_elim h'
  obtain ⟨x2, h2, h⟩ := bind_ok_elim h
  obtain ⟨y2, g2, h'⟩ := bind_ok_elim h'
  obtain ⟨x3, h3, h⟩ := bind_ok_elim h
  obtain ⟨y3, g3, h'⟩ := bind_ok_elim h'
  obtain ⟨x4, h4, h⟩ := bind_ok_elim h
  obtain ⟨y4, g4, h'⟩ := bind_ok_elim h'
  obtain ⟨x5, h5, h⟩ := bind_ok_elim h
  obtain ⟨y5, g5, h'⟩ := bind_ok_elim h'
  refine ⟨_, _, (pure_ok_elim h).symm, (pure_ok_elim h').symm, ?_⟩
  refine List.forall_mem_cons.2 ⟨⟨_, _, .head _,
    .head _, Dbg.id_inj.trans (ok_iff h0 g0)⟩, ?_⟩
  refine List.forall_mem_cons.2 ⟨⟨_, _, .tail _ (.head _),
    .tail _ (.head _), Dbg.name_inj⟩, ?_⟩
  refine List.forall_mem_cons.2 ⟨⟨_, _, .tail _ (.tail _ (.head _)),
    .tail _ (.tail _ (.head _)), (Dbg.flags32_inj (t := .createRequest) rfl).trans (ok_iff h2 g2)⟩, ?_⟩
  refine List.forall_mem_cons.2 ⟨⟨_, _, .tail _ (.tail _ (.tail _ (.head _))),
    .tail _ (.tail _ (.tail _ (.head _))), Dbg.hex32_inj.trans (ok_iff h3 g3)⟩, ?_⟩
  refine List.forall_mem_cons.2 ⟨⟨_, _, .tail _ (.tail _ (.tail _ (.tail _ (.head _)))),
    .tail _ (.tail _ (.tail _ (.tail _ (.head _)))), Dbg.mode_inj.trans (ok_iff h4 g4)⟩, ?_⟩
  refine List.forall_mem_cons.2 ⟨⟨_, _, .tail _ (.tail _ (.tail _ (.tail _ (.tail _ (.head _))))),
    .tail _ (.tail _ (.tail _ (.tail _ (.tail _ (.head _))))), Dbg.u32_inj.trans (ok_iff h5 g5)⟩, ?_⟩
  exact fun x hx => nomatch hx

theorem GetattrRequest.debug_labels {a b : GetattrRequest} {d d' : Dbg} (h : a.debug = .ok d)
    (h' : b.debug = .ok d') : LabelsTell "GetattrRequest" d d' (Labelled (.getattr a) (.getattr b)) := by
  simp only [GetattrRequest.debug] at h h'
  obtain ⟨x0, h0, h⟩ := bind_ok_elim h
  obtain ⟨y0, g0, h'⟩ := bind_ok_elim h'
  obtain ⟨x1, h1, h⟩ := bind_ok_elim h
  obtain ⟨y1, g1, h'⟩ := bind_ok_elim h'
  refine ⟨_, _, (pure_ok_elim h).symm, (pure_ok_elim h').symm, ?_⟩
  refine List.forall_mem_cons.2 ⟨⟨_, _, .head _,
    .head _, Dbg.id_inj.trans (ok_iff h0 g0)⟩, ?_⟩
  refine List.forall_mem_cons.2 ⟨⟨_, _, .tail _ (.head _),
    .tail _ (.head _), (Dbg.option_inj Dbg.u64_inj).trans (ok_iff h1 g1)⟩, ?_⟩
  exact fun x hx => nomatch hx

theorem MknodRequest.debug_labels {a b : MknodRequest} {d d' : Dbg} (h : a.debug = .ok d)
    (h' : b.debug = .ok d') : LabelsTell "MknodRequest" d d' (Labelled (.mknod a) (.mknod b)) := by
  simp only [MknodRequest.debug] at h h'
  obtain ⟨x0, h0, h⟩ := bind_ok_elim h
  obtain ⟨y0, g0, h'⟩ := bind_ok_elim h'
  obtain ⟨x2, h2, h⟩ := bind_ok_elim h
  obtain ⟨y2, g2, h'⟩ := bind_ok_elim h'
  obtain ⟨x3, h3, h⟩ := bind_ok_elim h
  obtain ⟨y3, g3, h'⟩ := bind_ok_elim h'
  obtain ⟨x4, h4, h⟩ := bind_ok_elim h
  obtain ⟨y4, g4, h'⟩ := bind_ok_elim h'
  refine ⟨_, _, (pure_ok_elim h).symm, (pure_ok_elim h').symm, ?_⟩
  refine List.forall_mem_cons.2 ⟨⟨_, _, .head _,
    .head _, Dbg.id_inj.trans (ok_iff h0 g0)⟩, ?_⟩
  refine List.forall_mem_cons.2 ⟨⟨_, _, .tail _ (.head _),
    .tail _ (.head _), Dbg.name_inj⟩, ?_⟩
  refine List.forall_mem_cons.2 ⟨⟨_, _, .tail _ (.tail _ (.head _)),
    .tail _ (.tail _ (.head _)), Dbg.mode_inj.trans (ok_iff h2 g2)⟩, ?_⟩
  refine List.forall_mem_cons.2 ⟨⟨_, _, .tail _ (.tail _ (.tail _ (.head _))),
    .tail _ (.tail _ (.tail _ (.head _))), Dbg.octal_inj.trans (ok_iff h3 g3)⟩, ?_⟩
  refine List.forall_mem_cons.2 ⟨⟨_, _, .tail _ (.tail _ (.tail _ (.tail _ (.head _)))),
    .tail _ (.tail _ (.tail _ (.tail _ (.head _)))), (Dbg.option_inj Dbg.u32_inj).trans (ok_iff h4 g4)⟩, ?_⟩
  exact fun x hx => nomatch hx

theorem ReaddirRequest.debug_labels {a b : ReaddirRequest} {d d' : Dbg} (h : a.debug = .ok d)
    (h' : b.debug = .ok d') : LabelsTell "ReaddirRequest" d d' (Labelled (.readdir a) (.readdir b)) := by
  simp only [ReaddirRequest.debug] at h h'
  obtain ⟨x0, h0, h⟩ := bind_ok_elim h
  obtain ⟨y0, g0, h'⟩ := bind_ok_elim h'
  obtain ⟨x1, h1, h⟩ := bind_ok_elim h
  obtain ⟨y1, g1, h'⟩ := bind_ok_elim h'
  obtain ⟨x2, h2, h⟩ := bind_ok_elim h
  obtain ⟨y2, g2, h'⟩ := bind_ok_elim h'
  obtain ⟨x3, h3, h⟩ := bind_ok_elim h
  obtain ⟨y3, g3, h'⟩ := bind_ok_elim h'
  obtain ⟨x4, h4, h⟩ := bind_ok_elim h
  obtain ⟨y4, g4, h'⟩ := bind_ok_elim h'
  refine ⟨_, _, (pure_ok_elim h).symm, (pure_ok_elim h').symm, ?_⟩
  refine List.forall_mem_cons.2 ⟨⟨_, _, .head _,
    .head _, Dbg.id_inj.trans (ok_iff h0 g0)⟩, ?_⟩
  refine List.forall_mem_cons.2 ⟨⟨_, _, .tail _ (.head _),
    .tail _ (.head _), Dbg.u32_inj.trans (ok_iff h1 g1)⟩, ?_⟩
  refine List.forall_mem_cons.2 ⟨⟨_, _, .tail _ (.tail _ (.head _)),
    .tail _ (.tail _ (.head _)), (Dbg.option_inj Dbg.id_inj).trans (ok_iff h2 g2)⟩, ?_⟩
  refine List.forall_mem_cons.2 ⟨⟨_, _, .tail _ (.tail _ (.tail _ (.head _))),
    .tail _ (.tail _ (.tail _ (.head _))), Dbg.u64_inj.trans (ok_iff h3 g3)⟩, ?_⟩
  refine List.forall_mem_cons.2 ⟨⟨_, _, .tail _ (.tail _ (.tail _ (.tail _ (.head _)))),
    .tail _ (.tail _ (.tail _ (.tail _ (.head _)))), Dbg.hex32_inj.trans (ok_iff h4 g4)⟩, ?_⟩
  exact fun x hx => nomatch hx

theorem ReaddirplusRequest.debug_labels {a b : ReaddirplusRequest} {d d' : Dbg} (h : a.debug = .ok d)
    (h' : b.debug = .ok d') : LabelsTell "ReaddirplusRequest" d d' (Labelled (.readdirplus a) (.readdirplus b)) := by
  simp only [ReaddirplusRequest.debug] at h h'
  obtain ⟨x0, h0, h⟩ := bind_ok_elim h
  obtain ⟨y0, g0, h'⟩ := bind_ok_elim h'
  obtain ⟨x1, h1, h⟩ := bind_ok_elim h
  obtain ⟨y1, g1, h'⟩ := bind_ok_elim h'
  obtain ⟨x2, h2, h⟩ := bind_ok_elim h
  obtain ⟨y2, g2, h'⟩ := bind_ok_elim h'
  obtain ⟨x3, h3, h⟩ := bind_ok_elim h
  obtain ⟨y3, g3, h'⟩ := bind_ok_elim h'
  obtain ⟨x4, h4, h⟩ := bind_ok_elim h
  obtain ⟨y4, g4, h'⟩ := bind_ok_elim h'
  refine ⟨_, _, (pure_ok_elim h).symm, (pure_ok_elim h').symm, ?_⟩
  refine List.forall_mem_cons.2 ⟨⟨_, _, .head _,
    .head _, Dbg.id_inj.trans (ok_iff h0 g0)⟩, ?_⟩
  refine List.forall_mem_cons.2 ⟨⟨_, _, .tail _ (.head _),
    .tail _ (.head _), Dbg.u32_inj.trans (ok_iff h1 g1)⟩, ?_⟩
  refine List.forall_mem_cons.2 ⟨⟨_, _, .tail _ (.tail _ (.head _)),
    .tail _ (.tail _ (.head _)), (Dbg.option_inj Dbg.id_inj).trans (ok_iff h2 g2)⟩, ?_⟩
  refine List.forall_mem_cons.2 ⟨⟨_, _, .tail _ (.tail _ (.tail _ (.head _))),
    .tail _ (.tail _ (.tail _ (.head _))), Dbg.u64_inj.trans (ok_iff h3 g3)⟩, ?_⟩
  refine List.forall_mem_cons.2 ⟨⟨_, _, .tail _ (.tail _ (.tail _ (.tail _ (.head _)))),
    .tail _ (.tail _ (.tail _ (.tail _ (.head _)))), Dbg.hex32_inj.trans (ok_iff h4 g4)⟩, ?_⟩
  exact fun x hx => nomatch hx

theorem ReleasedirRequest.debug_labels {a b : ReleasedirRequest} {d d' : Dbg} (h : a.debug = .ok d)
    (h' : b.debug = .ok d') : LabelsTell "ReleasedirRequest" d d' (Labelled (.releasedir a) (.releasedir b)) := by
  simp only [ReleasedirRequest.debug] at h h'
  obtain ⟨x0, h0, h⟩ := bind_ok_elim h
  obtain ⟨y0, g0, h'⟩ := bind_ok_elim h'
  obtain ⟨x1, h1, h⟩ := bind_ok_elim h
  obtain ⟨y1, g1, h'⟩ := bind_ok_elim h'
  obtain ⟨x2, h2, h⟩ := bind_ok_elim h
  obtain ⟨y2, g2, h'⟩ := bind_ok_elim h'
  obtain ⟨x3, h3, h⟩ := bind_ok_elim h
  obtain ⟨y3, g3, h'⟩ := bind_ok_elim h'
  refine ⟨_, _, (pure_ok_elim h).symm, (pure_ok_elim h').symm, ?_⟩
  refine List.forall_mem_cons.2 ⟨⟨_, _, .head _,
    .head _, Dbg.id_inj.trans (ok_iff h0 g0)⟩, ?_⟩
  refine List.forall_mem_cons.2 ⟨⟨_, _, .tail _ (.head _),
    .tail _ (.head _), Dbg.u64_inj.trans (ok_iff h1 g1)⟩, ?_⟩
  refine List.forall_mem_cons.2 ⟨⟨_, _, .tail _ (.tail _ (.head _)),
    .tail _ (.tail _ (.head _)), (Dbg.option_inj Dbg.hex64_inj).trans (ok_iff h2 g2)⟩, ?_⟩
  refine List.forall_mem_cons.2 ⟨⟨_, _, .tail _ (.tail _ (.tail _ (.head _))),
    .tail _ (.tail _ (.tail _ (.head _))), Dbg.hex32_inj.trans (ok_iff h3 g3)⟩, ?_⟩
  exact fun x hx => nomatch hx

theorem SetxattrRequest.debug_labels {a b : SetxattrRequest} {d d' : Dbg} (h : a.debug = .ok d)
    (h' : b.debug = .ok d') : LabelsTell "SetxattrRequest" d d' (Labelled (.setxattr a) (.setxattr b)) := by
  simp only [SetxattrRequest.debug] at h h'
  obtain ⟨x0, h0, h⟩ := bind_ok_elim h
  obtain ⟨y0, g0, h'⟩ := bind_ok_elim h'
  obtain ⟨x2, h2, h⟩ := bind_ok_elim h
  obtain ⟨y2, g2, h'⟩ := bind_ok_elim h'
  obtain ⟨x3, h3, h⟩ := bind_ok_elim h
  obtain ⟨y3, g3, h'⟩ := bind_ok_elim h'
  refine ⟨_, _, (pure_ok_elim h).symm, (pure_ok_elim h').symm, ?_⟩
  refine List.forall_mem_cons.2 ⟨⟨_, _, .head _,
    .head _, Dbg.id_inj.trans (ok_iff h0 g0)⟩, ?_⟩
  refine List.forall_mem_cons.2 ⟨⟨_, _, .tail _ (.head _),
    .tail _ (.head _), Dbg.cstr_inj⟩, ?_⟩
  refine List.forall_mem_cons.2 ⟨⟨_, _, .tail _ (.tail _ (.head _)),
    .tail _ (.tail _ (.head _)), (Dbg.flags32_inj (t := .setxattrRequest) rfl).trans (ok_iff h2 g2)⟩, ?_⟩
  refine List.forall_mem_cons.2 ⟨⟨_, _, .tail _ (.tail _ (.tail _ (.head _))),
    .tail _ (.tail _ (.tail _ (.head _))), Dbg.hex32_inj.trans (ok_iff h3 g3)⟩, ?_⟩
  refine List.forall_mem_cons.2 ⟨⟨_, _, .tail _ (.tail _ (.tail _ (.tail _ (.head _)))),
    .tail _ (.tail _ (.tail _ (.tail _ (.head _)))), Dbg.quoted_inj⟩, ?_⟩
  exact fun x hx => nomatch hx

theorem FlushRequest.debug_labels {a b : FlushRequest} {d d' : Dbg} (h : a.debug = .ok d)
    (h' : b.debug = .ok d') : LabelsTell "FlushRequest" d d' (Labelled (.flush a) (.flush b)) := by
  simp only [FlushRequest.debug] at h h'
  refine ⟨_, _, (pure_ok_elim h).symm, (pure_ok_elim h').symm, ?_⟩
  refine List.forall_mem_cons.2 ⟨⟨_, _, .head _,
    .head _, Dbg.id_inj⟩, ?_⟩
  refine List.forall_mem_cons.2 ⟨⟨_, _, .tail _ (.head _),
    .tail _ (.head _), Dbg.u64_inj⟩, ?_⟩
  refine List.forall_mem_cons.2 ⟨⟨_, _, .tail _ (.tail _ (.head _)),
    .tail _ (.tail _ (.head _)), Dbg.hex64_inj⟩, ?_⟩
  exact fun x hx => nomatch hx

theorem FsyncRequest.debug_labels {a b : FsyncRequest} {d d' : Dbg} (h : a.debug = .ok d)
    (h' : b.debug = .ok d') : LabelsTell "FsyncRequest" d d' (Labelled (.fsync a) (.fsync b)) := by
  simp only [FsyncRequest.debug] at h h'
  refine ⟨_, _, (pure_ok_elim h).symm, (pure_ok_elim h').symm, ?_⟩
  refine List.forall_mem_cons.2 ⟨⟨_, _, .head _,
    .head _, Dbg.id_inj⟩, ?_⟩
  refine List.forall_mem_cons.2 ⟨⟨_, _, .tail _ (.head _),
    .tail _ (.head _), Dbg.u64_inj⟩, ?_⟩
  refine List.forall_mem_cons.2 ⟨⟨_, _, .tail _ (.tail _ (.head _)),
    .tail _ (.tail _ (.head _)), Dbg.flags32_inj (t := .fsyncRequest) rfl⟩, ?_⟩
  exact fun x hx => nomatch hx

theorem IoctlRequest.debug_labels {a b : IoctlRequest} {d d' : Dbg} (h : a.debug = .ok d)
    (h' : b.debug = .ok d') : LabelsTell "IoctlRequest" d d' (Labelled (.ioctl a) (.ioctl b)) := by
  simp only [IoctlRequest.debug] at h h'
  refine ⟨_, _, (pure_ok_elim h).symm, (pure_ok_elim h').symm, ?_⟩
  refine List.forall_mem_cons.2 ⟨⟨_, _, .head _,
    .head _, Dbg.id_inj⟩, ?_⟩
  refine List.forall_mem_cons.2 ⟨⟨_, _, .tail _ (.head _),
    .tail _ (.head _), Dbg.u64_inj⟩, ?_⟩
  refine List.forall_mem_cons.2 ⟨⟨_, _, .tail _ (.tail _ (.head _)),
    .tail _ (.tail _ (.head _)), Dbg.hex32_inj⟩, ?_⟩
  refine List.forall_mem_cons.2 ⟨⟨_, _, .tail _ (.tail _ (.tail _ (.head _))),
    .tail _ (.tail _ (.tail _ (.head _))), Dbg.hex64_inj⟩, ?_⟩
  refine List.forall_mem_cons.2 ⟨⟨_, _, .tail _ (.tail _ (.tail _ (.tail _ (.head _)))),
    .tail _ (.tail _ (.tail _ (.tail _ (.head _)))), Dbg.u32_inj⟩, ?_⟩
  refine List.forall_mem_cons.2 ⟨⟨_, _, .tail _ (.tail _ (.tail _ (.tail _ (.tail _ (.head _))))),
    .tail _ (.tail _ (.tail _ (.tail _ (.tail _ (.head _))))), Dbg.flags32_inj (t := .ioctlRequest) rfl⟩, ?_⟩
  refine List.forall_mem_cons.2 ⟨⟨_, _, .tail _ (.tail _ (.tail _ (.tail _ (.tail _ (.tail _ (.head _)))))),
    .tail _ (.tail _ (.tail _ (.tail _ (.tail _ (.tail _ (.head _)))))), Dbg.byteList_inj⟩, ?_⟩
  exact fun x hx => nomatch hx

theorem OpenRequest.debug_labels {a b : OpenRequest} {d d' : Dbg} (h : a.debug = .ok d)
    (h' : b.debug = .ok d') : LabelsTell "OpenRequest" d d' (Labelled (.open_ a) (.open_ b)) := by
  simp only [OpenRequest.debug] at h h'
  refine ⟨_, _, (pure_ok_elim h).symm, (pure_ok_elim h').symm, ?_⟩
  refine List.forall_mem_cons.2 ⟨⟨_, _, .head _,
    .head _, Dbg.id_inj⟩, ?_⟩
  refine List.forall_mem_cons.2 ⟨⟨_, _, .tail _ (.head _),
    .tail _ (.head _), Dbg.flags32_inj (t := .openRequest) rfl⟩, ?_⟩
  refine List.forall_mem_cons.2 ⟨⟨_, _, .tail _ (.tail _ (.head _)),
    .tail _ (.tail _ (.head _)), Dbg.hex32_inj⟩, ?_⟩
  exact fun x hx => nomatch hx

theorem ReadRequest.debug_labels {a b : ReadRequest} {d d' : Dbg} (h : a.debug = .ok d)
    (h' : b.debug = .ok d') : LabelsTell "ReadRequest" d d' (Labelled (.read a) (.read b)) := by
  simp only [ReadRequest.debug] at h h'
  obtain ⟨x1, h1, h⟩ := bind_ok_elim h
  obtain ⟨y1, g1, h'⟩ := bind_ok_elim h'
  obtain ⟨x2, h2, h⟩ := bind_ok_elim h
  obtain ⟨y2, g2, h'⟩ := bind_ok_elim h'
  obtain ⟨x3, h3, h⟩ := bind_ok_elim h
  obtain ⟨y3, g3, h'⟩ := bind_ok_elim h'
  obtain ⟨x4, h4, h⟩ := bind_ok_elim h
  obtain ⟨y4, g4, h'⟩ := bind_ok_elim h'
  obtain ⟨x5, h5, h⟩ := bind_ok_elim h
  obtain ⟨y5, g5, h'⟩ := bind_ok_elim h'
  refine ⟨_, _, (pure_ok_elim h).symm, (pure_ok_elim h').symm, ?_⟩
  refine List.forall_mem_cons.2 ⟨⟨_, _, .head _,
    .head _, Dbg.id_inj⟩, ?_⟩
  refine List.forall_mem_cons.2 ⟨⟨_, _, .tail _ (.head _),
    .tail _ (.head _), Dbg.u32_inj.trans (ok_iff h1 g1)⟩, ?_⟩
  refine List.forall_mem_cons.2 ⟨⟨_, _, .tail _ (.tail _ (.head _)),
    .tail _ (.tail _ (.head _)), Dbg.u64_inj.trans (ok_iff h2 g2)⟩, ?_⟩
  refine List.forall_mem_cons.2 ⟨⟨_, _, .tail _ (.tail _ (.tail _ (.head _))),
    .tail _ (.tail _ (.tail _ (.head _))), Dbg.u64_inj.trans (ok_iff h3 g3)⟩, ?_⟩
  refine List.forall_mem_cons.2 ⟨⟨_, _, .tail _ (.tail _ (.tail _ (.tail _ (.head _)))),
    .tail _ (.tail _ (.tail _ (.tail _ (.head _)))), (Dbg.option_inj Dbg.hex64_inj).trans (ok_iff h4 g4)⟩, ?_⟩
  refine List.forall_mem_cons.2 ⟨⟨_, _, .tail _ (.tail _ (.tail _ (.tail _ (.tail _ (.head _))))),
    .tail _ (.tail _ (.tail _ (.tail _ (.tail _ (.head _))))), Dbg.hex32_inj.trans (ok_iff h5 g5)⟩, ?_⟩
  exact fun x hx => nomatch hx

theorem ReleaseRequest.debug_labels {a b : ReleaseRequest} {d d' : Dbg} (h : a.debug = .ok d)
    (h' : b.debug = .ok d') : LabelsTell "ReleaseRequest" d d' (Labelled (.release a) (.release b)) := by
  simp only [ReleaseRequest.debug] at h h'
  obtain ⟨x1, h1, h⟩ := bind_ok_elim h
  obtain ⟨y1, g1, h'⟩ := bind_ok_elim h'
  obtain ⟨x2, h2, h⟩ := bind_ok_elim h
  obtain ⟨y2, g2, h'⟩ := bind_ok_elim h'
  obtain ⟨x3, h3, h⟩ := bind_ok_elim h
  obtain ⟨y3, g3, h'⟩ := bind_ok_elim h'
  refine ⟨_, _, (pure_ok_elim h).symm, (pure_ok_elim h').symm, ?_⟩
  refine List.forall_mem_cons.2 ⟨⟨_, _, .head _,
    .head _, Dbg.id_inj⟩, ?_⟩
  refine List.forall_mem_cons.2 ⟨⟨_, _, .tail _ (.head _),
    .tail _ (.head _), Dbg.u64_inj.trans (ok_iff h1 g1)⟩, ?_⟩
  refine List.forall_mem_cons.2 ⟨⟨_, _, .tail _ (.tail _ (.head _)),
    .tail _ (.tail _ (.head _)), (Dbg.option_inj Dbg.hex64_inj).trans (ok_iff h2 g2)⟩, ?_⟩
  refine List.forall_mem_cons.2 ⟨⟨_, _, .tail _ (.tail _ (.tail _ (.head _))),
    .tail _ (.tail _ (.tail _ (.head _))), Dbg.hex32_inj.trans (ok_iff h3 g3)⟩, ?_⟩
  exact fun x hx => nomatch hx

theorem WriteRequest.debug_labels {a b : WriteRequest} {d d' : Dbg} (h : a.debug = .ok d)
    (h' : b.debug = .ok d') : LabelsTell "WriteRequest" d d' (Labelled (.write a) (.write b)) := by
  simp only [WriteRequest.debug] at h h'
  obtain ⟨x0, h0, h⟩ := bind_ok_elim h
  obtain ⟨y0, g0, h'⟩ := bind_ok_elim h'
  obtain ⟨x1, h1, h⟩ := bind_ok_elim h
  obtain ⟨y1, g1, h'⟩ := bind_ok_elim h'
  obtain ⟨x2, h2, h⟩ := bind_ok_elim h
  obtain ⟨y2, g2, h'⟩ := bind_ok_elim h'
  obtain ⟨x3, h3, h⟩ := bind_ok_elim h
  obtain ⟨y3, g3, h'⟩ := bind_ok_elim h'
  obtain ⟨x4, h4, h⟩ := bind_ok_elim h
  obtain ⟨y4, g4, h'⟩ := bind_ok_elim h'
  obtain ⟨x5, h5, h⟩ := bind_ok_elim h
  obtain ⟨y5, g5, h'⟩ := bind_ok_elim h'
  obtain ⟨x6, h6, h⟩ := bind_ok_elim h
  obtain ⟨y6, g6, h'⟩ := bind_ok_elim h'
  refine ⟨_, _, (pure_ok_elim h).symm, (pure_ok_elim h').symm, ?_⟩
  refine List.forall_mem_cons.2 ⟨⟨_, _, .head _,
    .head _, Dbg.id_inj.trans (ok_iff h0 g0)⟩, ?_⟩
  refine List.forall_mem_cons.2 ⟨⟨_, _, .tail _ (.head _),
    .tail _ (.head _), Dbg.u64_inj.trans (ok_iff h1 g1)⟩, ?_⟩
  refine List.forall_mem_cons.2 ⟨⟨_, _, .tail _ (.tail _ (.head _)),
    .tail _ (.tail _ (.head _)), Dbg.u64_inj.trans (ok_iff h2 g2)⟩, ?_⟩
  refine List.forall_mem_cons.2 ⟨⟨_, _, .tail _ (.tail _ (.tail _ (.head _))),
    .tail _ (.tail _ (.tail _ (.head _))), Dbg.quoted_inj.trans (ok_iff h3 g3)⟩, ?_⟩
  refine List.forall_mem_cons.2 ⟨⟨_, _, .tail _ (.tail _ (.tail _ (.tail _ (.head _)))),
    .tail _ (.tail _ (.tail _ (.tail _ (.head _)))), (Dbg.flags32_inj (t := .writeRequest) rfl).trans (ok_iff h4 g4)⟩, ?_⟩
  refine List.forall_mem_cons.2 ⟨⟨_, _, .tail _ (.tail _ (.tail _ (.tail _ (.tail _ (.head _))))),
    .tail _ (.tail _ (.tail _ (.tail _ (.tail _ (.head _))))), (Dbg.option_inj Dbg.hex64_inj).trans (ok_iff h5 g5)⟩, ?_⟩
  refine List.forall_mem_cons.2 ⟨⟨_, _, .tail _ (.tail _ (.tail _ (.tail _ (.tail _ (.tail _ (.head _)))))),
    .tail _ (.tail _ (.tail _ (.tail _ (.tail _ (.tail _ (.head _)))))), Dbg.hex32_inj.trans (ok_iff h6 g6)⟩, ?_⟩
  exact fun x hx => nomatch hx

theorem debug_labels {p : Platform} {a b : AnyRequest} {d d' : Dbg} (h : a.debug p = .ok d) (h' : b.debug p = .ok d')
    (hn : a.typeName = b.typeName) : LabelsTell a.typeName d d' (Labelled a b) := by
  replace hn := ctorIdx_of_typeName hn
  cases a with
  | access a =>
    cases b with
    | access b => exact AccessRequest.debug_labels h h'
    | _ => exact absurd hn (Nat.ne_of_beq_eq_false rfl)
  | bmap a =>
    cases b with
    | bmap b => exact BmapRequest.debug_labels h h'
    | _ => exact absurd hn (Nat.ne_of_beq_eq_false rfl)
  | copyFileRange a =>
    cases b with
    | copyFileRange b => exact CopyFileRangeRequest.debug_labels h h'
    | _ => exact absurd hn (Nat.ne_of_beq_eq_false rfl)
  | fallocate a =>
    cases b with
    | fallocate b => exact FallocateRequest.debug_labels h h'
    | _ => exact absurd hn (Nat.ne_of_beq_eq_false rfl)
  | forget a =>
    cases b with
    | forget b => exact ForgetRequest.debug_labels h h'
    | _ => exact absurd hn (Nat.ne_of_beq_eq_false rfl)
  | fsyncdir a =>
    cases b with
    | fsyncdir b => exact FsyncdirRequest.debug_labels h h'
    | _ => exact absurd hn (Nat.ne_of_beq_eq_false rfl)
  | getlk a =>
    cases b with
    | getlk b => exact GetlkRequest.debug_labels h h'
    | _ => exact absurd hn (Nat.ne_of_beq_eq_false rfl)
  | getxattr a =>
    cases b with
    | getxattr b => exact GetxattrRequest.debug_labels h h'
    | _ => exact absurd hn (Nat.ne_of_beq_eq_false rfl)
  | interrupt a =>
    cases b with
    | interrupt b => exact InterruptRequest.debug_labels h h'
    | _ => exact absurd hn (Nat.ne_of_beq_eq_false rfl)
  | link a =>
    cases b with
    | link b => exact LinkRequest.debug_labels h h'
    | _ => exact absurd hn (Nat.ne_of_beq_eq_false rfl)
  | listxattr a =>
    cases b with
    | listxattr b => exact ListxattrRequest.debug_labels h h'
    | _ => exact absurd hn (Nat.ne_of_beq_eq_false rfl)
  | lookup a =>
    cases b with
    | lookup b => exact LookupRequest.debug_labels h h'
    | _ => exact absurd hn (Nat.ne_of_beq_eq_false rfl)
  | lseek a =>
    cases b with
    | lseek b => exact LseekRequest.debug_labels h h'
    | _ => exact absurd hn (Nat.ne_of_beq_eq_false rfl)
  | mkdir a =>
    cases b with
    | mkdir b => exact MkdirRequest.debug_labels h h'
    | _ => exact absurd hn (Nat.ne_of_beq_eq_false rfl)
  | opendir a =>
    cases b with
    | opendir b => exact OpendirRequest.debug_labels h h'
    | _ => exact absurd hn (Nat.ne_of_beq_eq_false rfl)
  | poll a =>
    cases b with
    | poll b => exact PollRequest.debug_labels h h'
    | _ => exact absurd hn (Nat.ne_of_beq_eq_false rfl)
  | readlink a =>
    cases b with
    | readlink b => exact ReadlinkRequest.debug_labels h h'
    | _ => exact absurd hn (Nat.ne_of_beq_eq_false rfl)
  | removexattr a =>
    cases b with
    | removexattr b => exact RemovexattrRequest.debug_labels h h'
    | _ => exact absurd hn (Nat.ne_of_beq_eq_false rfl)
  | rename a =>
    cases b with
    | rename b => exact RenameRequest.debug_labels h h'
    | _ => exact absurd hn (Nat.ne_of_beq_eq_false rfl)
  | rmdir a =>
    cases b with
    | rmdir b => exact RmdirRequest.debug_labels h h'
    | _ => exact absurd hn (Nat.ne_of_beq_eq_false rfl)
  | setattr a =>
    cases b with
    | setattr b => exact SetattrRequest.debug_labels h h'
    | _ => exact absurd hn (Nat.ne_of_beq_eq_false rfl)
  | setlk a =>
    cases b with
    | setlk b => exact SetlkRequest.debug_labels h h'
    | _ => exact absurd hn (Nat.ne_of_beq_eq_false rfl)
  | statfs a =>
    cases b with
    | statfs b => exact StatfsRequest.debug_labels h h'
    | _ => exact absurd hn (Nat.ne_of_beq_eq_false rfl)
  | symlink a =>
    cases b with
    | symlink b => exact SymlinkRequest.debug_labels h h'
    | _ => exact absurd hn (Nat.ne_of_beq_eq_false rfl)
  | unlink a =>
    cases b with
    | unlink b => exact UnlinkRequest.debug_labels h h'
    | _ => exact absurd hn (Nat.ne_of_beq_eq_false rfl)
  | fuseInit a =>
    cases b with
    | fuseInit b => exact FuseInitRequest.debug_labels h h'
    | _ => exact absurd hn (Nat.ne_of_beq_eq_false rfl)
  | cuseInit a =>
    cases b with
    | cuseInit b => exact CuseInitRequest.debug_labels h h'
    | _ => exact absurd hn (Nat.ne_of_beq_eq_false rfl)
  | create a =>
    cases b with
    | create b => exact CreateRequest.debug_labels h h'
    | _ => exact absurd hn (Nat.ne_of_beq_eq_false rfl)
  | getattr a =>
    cases b with
    | getattr b => exact GetattrRequest.debug_labels h h'
    | _ => exact absurd hn (Nat.ne_of_beq_eq_false rfl)
  | mknod a =>
    cases b with
    | mknod b => exact MknodRequest.debug_labels h h'
    | _ => exact absurd hn (Nat.ne_of_beq_eq_false rfl)
  | readdir a =>
    cases b with
    | readdir b => exact ReaddirRequest.debug_labels h h'
    | _ => exact absurd hn (Nat.ne_of_beq_eq_false rfl)
  | readdirplus a =>
    cases b with
    | readdirplus b => exact ReaddirplusRequest.debug_labels h h'
    | _ => exact absurd hn (Nat.ne_of_beq_eq_false rfl)
  | releasedir a =>
    cases b with
    | releasedir b => exact ReleasedirRequest.debug_labels h h'
    | _ => exact absurd hn (Nat.ne_of_beq_eq_false rfl)
  | setxattr a =>
    cases b with
    | setxattr b => exact SetxattrRequest.debug_labels h h'
    | _ => exact absurd hn (Nat.ne_of_beq_eq_false rfl)
  | flush a =>
    cases b with
    | flush b => exact FlushRequest.debug_labels h h'
    | _ => exact absurd hn (Nat.ne_of_beq_eq_false rfl)
  | fsync a =>
    cases b with
    | fsync b => exact FsyncRequest.debug_labels h h'
    | _ => exact absurd hn (Nat.ne_of_beq_eq_false rfl)
  | ioctl a =>
    cases b with
    | ioctl b => exact IoctlRequest.debug_labels h h'
    | _ => exact absurd hn (Nat.ne_of_beq_eq_false rfl)
  | open_ a =>
    cases b with
    | open_ b => exact OpenRequest.debug_labels h h'
    | _ => exact absurd hn (Nat.ne_of_beq_eq_false rfl)
  | read a =>
    cases b with
    | read b => exact ReadRequest.debug_labels h h'
    | _ => exact absurd hn (Nat.ne_of_beq_eq_false rfl)
  | release a =>
    cases b with
    | release b => exact ReleaseRequest.debug_labels h h'
    | _ => exact absurd hn (Nat.ne_of_beq_eq_false rfl)
  | write a =>
    cases b with
    | write b => exact WriteRequest.debug_labels h h'
    | _ => exact absurd hn (Nat.ne_of_beq_eq_false rfl)

/-- **C70**, labels: the text of a request starts with the name of its type and shows the value of each accessor
behind the name of that accessor: of two requests of a type, the values behind the name of an accessor are equal if and
only if the accessor returns the same for both. -/
theorem C70_labels {p : Platform} {a b : AnyRequest} {d d' : Dbg} (h : a.debug p = .ok d) (h' : b.debug p = .ok d')
    (hn : a.typeName = b.typeName) : LabelsTell a.typeName d d' (Labelled a b) := debug_labels h h' hn

/-- **C70**, names: opcodes, lock modes and seek modes are shown by the names of the constants. -/
theorem C70_names (p : Platform) :
    (∀ x ∈ ([(FUSE_LOOKUP, "FUSE_LOOKUP"), (FUSE_FORGET, "FUSE_FORGET"), (FUSE_GETATTR, "FUSE_GETATTR"),
      (FUSE_SETATTR, "FUSE_SETATTR"), (FUSE_READLINK, "FUSE_READLINK"), (FUSE_SYMLINK, "FUSE_SYMLINK"),
      (FUSE_MKNOD, "FUSE_MKNOD"), (FUSE_MKDIR, "FUSE_MKDIR"), (FUSE_UNLINK, "FUSE_UNLINK"),
      (FUSE_RMDIR, "FUSE_RMDIR"), (FUSE_RENAME, "FUSE_RENAME"), (FUSE_LINK, "FUSE_LINK"), (FUSE_OPEN, "FUSE_OPEN"),
      (FUSE_READ, "FUSE_READ"), (FUSE_WRITE, "FUSE_WRITE"), (FUSE_STATFS, "FUSE_STATFS"),
      (FUSE_RELEASE, "FUSE_RELEASE"), (FUSE_FSYNC, "FUSE_FSYNC"), (FUSE_SETXATTR, "FUSE_SETXATTR"),
      (FUSE_GETXATTR, "FUSE_GETXATTR"), (FUSE_LISTXATTR, "FUSE_LISTXATTR"), (FUSE_REMOVEXATTR, "FUSE_REMOVEXATTR"),
      (FUSE_FLUSH, "FUSE_FLUSH"), (FUSE_INIT, "FUSE_INIT"), (FUSE_OPENDIR, "FUSE_OPENDIR"),
      (FUSE_READDIR, "FUSE_READDIR"), (FUSE_RELEASEDIR, "FUSE_RELEASEDIR"), (FUSE_FSYNCDIR, "FUSE_FSYNCDIR"),
      (FUSE_GETLK, "FUSE_GETLK"), (FUSE_SETLK, "FUSE_SETLK"), (FUSE_SETLKW, "FUSE_SETLKW"),
      (FUSE_ACCESS, "FUSE_ACCESS"), (FUSE_CREATE, "FUSE_CREATE"), (FUSE_INTERRUPT, "FUSE_INTERRUPT"),
      (FUSE_BMAP, "FUSE_BMAP"), (FUSE_DESTROY, "FUSE_DESTROY"), (FUSE_IOCTL, "FUSE_IOCTL"),
      (FUSE_POLL, "FUSE_POLL"), (FUSE_NOTIFY_REPLY, "FUSE_NOTIFY_REPLY"), (FUSE_BATCH_FORGET, "FUSE_BATCH_FORGET"),
      (FUSE_FALLOCATE, "FUSE_FALLOCATE"), (FUSE_READDIRPLUS, "FUSE_READDIRPLUS"), (FUSE_RENAME2, "FUSE_RENAME2"),
      (FUSE_LSEEK, "FUSE_LSEEK"), (FUSE_COPY_FILE_RANGE, "FUSE_COPY_FILE_RANGE"),
      (FUSE_SETUPMAPPING, "FUSE_SETUPMAPPING"), (FUSE_REMOVEMAPPING, "FUSE_REMOVEMAPPING"),
      (FUSE_SYNCFS, "FUSE_SYNCFS"), (CUSE_INIT, "CUSE_INIT"),
      (CUSE_INIT_BSWAP_RESERVED, "CUSE_INIT_BSWAP_RESERVED"), (FUSE_INIT_BSWAP_RESERVED, "FUSE_INIT_BSWAP_RESERVED")] : List (UInt32 × String)), (Dbg.opcode x.1).text = text x.2) ∧
    (Dbg.lockMode p (F_RDLCK p)).text = text "F_RDLCK" ∧ (Dbg.lockMode p (F_WRLCK p)).text = text "F_WRLCK" ∧
    (Dbg.lockMode p (F_UNLCK p)).text = text "F_UNLCK" ∧ (Dbg.whence 3).text = text "SEEK_DATA" ∧
    (Dbg.whence 4).text = text "SEEK_HOLE" := by
  refine ⟨by decide +kernel, ?_⟩
  cases p with
  | freebsd => decide +kernel
  | linux a => cases a <;> decide +kernel

example : Labelled (.access ⟨⟨1, by decide⟩, 4⟩) (.access ⟨⟨1, by decide⟩, 5⟩) =
    [("node_id", (⟨1, by decide⟩ : NodeId) = ⟨1, by decide⟩), ("mask", (4 : UInt32) = 5)] := rfl

end Fuse
