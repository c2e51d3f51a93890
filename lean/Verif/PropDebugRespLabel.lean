import Verif.PropDebugSent
import Verif.PropDebugLabel

/-!
# C72, continued: what stands behind each label
-/

namespace Fuse
open Spec

namespace Spec

/-- The public accessors of two responses, notifications or parts of the same type, each with the claim that it returns the
same for both; for an accessor that returns another such value, with the claim that its text is the same.  A device name
and the result of a request to retry are shown only when there are any. -/
def ShownLabelled : Shown → Shown → List (String × Prop)
  | .attr a, .attr b => [("node_id", a.nodeId = b.nodeId), ("mode", a.mode = b.mode), ("size", a.size = b.size),
      ("atime", a.atime = b.atime), ("mtime", a.mtime = b.mtime), ("ctime", a.ctime = b.ctime),
      ("link_count", a.linkCount = b.linkCount), ("user_id", a.userId = b.userId),
      ("group_id", a.groupId = b.groupId), ("device_number", a.deviceNumber = b.deviceNumber),
      ("block_count", a.blockCount = b.blockCount), ("block_size", a.blockSize = b.blockSize),
      ("flags", a.raw.flags = b.raw.flags)]
  | .entry a, .entry b => [("generation", a.generation = b.generation),
      ("attributes", a.attributes.debug = b.attributes.debug), ("cache_timeout", a.cacheTimeout = b.cacheTimeout),
      ("attribute_cache_timeout", a.attributeCacheTimeout = b.attributeCacheTimeout)]
  | .create a, .create b => [("entry", a.entry.debug = b.entry.debug), ("handle", a.handle = b.handle),
      ("flags", a.flags = b.flags)]
  | .fuseInit a, .fuseInit b => [("max_readahead", a.maxReadahead = b.maxReadahead), ("flags", a.flags = b.flags),
      ("max_background", a.maxBackground = b.maxBackground),
      ("congestion_threshold", a.congestionThreshold = b.congestionThreshold), ("max_write", a.maxWrite = b.maxWrite),
      ("time_granularity", a.timeGranularity = b.timeGranularity)]
  | .statfs a, .statfs b => [("block_count", a.blockCount = b.blockCount), ("block_size", a.blockSize = b.blockSize),
      ("blocks_available", a.blocksAvailable = b.blocksAvailable), ("blocks_free", a.blocksFree = b.blocksFree),
      ("fragment_size", a.fragmentSize = b.fragmentSize), ("inode_count", a.inodeCount = b.inodeCount),
      ("inodes_free", a.inodesFree = b.inodesFree),
      ("max_filename_length", a.maxFilenameLength = b.maxFilenameLength)]
  | .header a, .header b => [("request_id", a.requestId = b.requestId),
      ("response_len", a.responseLen = b.responseLen), ("error", a.error = b.error)]
  | .delete a, .delete b => [("parent_id", a.parentId = b.parentId), ("node_id", a.nodeId = b.nodeId),
      ("name", a.name = b.name)]
  | .invalidateEntry a, .invalidateEntry b => [("parent_id", a.parentId = b.parentId), ("name", a.name = b.name)]
  | .invalidateInode a, .invalidateInode b => [("node_id", a.nodeId = b.nodeId), ("offset", a.offset = b.offset),
      ("size", a.size = b.size)]
  | .poll a, .poll b => [("poll_handle", a.pollHandle = b.pollHandle)]
  | .readdirEntry a, .readdirEntry b => [("node_id", ReaddirEntry.nodeId a = ReaddirEntry.nodeId b),
      ("offset", ReaddirEntry.offset a = ReaddirEntry.offset b),
      ("file_type", ReaddirEntry.fileType a = ReaddirEntry.fileType b), ("name", a.name = b.name)]
  | .readdirplusEntry a, .readdirplusEntry b => [("name", a.name = b.name),
      ("offset", ReaddirplusEntry.offset a = ReaddirplusEntry.offset b),
      ("entry", (ReaddirplusEntry.entry a).debug = (ReaddirplusEntry.entry b).debug)]
  | .retry a, .retry b => [("input_slices", a.input = b.input), ("output_slices", a.output = b.output)]
  | .slice a, .slice b => [("base", a.base = b.base), ("len", a.len = b.len)]
  | .cuseInit a, .cuseInit b =>
      (match a.deviceName, b.deviceName with
        | some m, some n => [("device_name", m.bytes = n.bytes)]
        | _, _ => []) ++
      [("version", a.version = b.version), ("flags", a.flags = b.flags), ("max_read", a.raw.max_read = b.raw.max_read),
        ("max_write", a.maxWrite = b.maxWrite),
        ("device_number", (a.raw.dev_major, a.raw.dev_minor) = (b.raw.dev_major, b.raw.dev_minor))]
  | .ioctl a s, .ioctl b t =>
    match a.output, b.output with
    | .bytes x, .bytes y => [("result", a.raw.result = b.raw.result), ("output", x = y)]
    | .retry i o, .retry i' o' =>
      (if s = true ∧ t = true then [("result", a.raw.result = b.raw.result)] else []) ++
        [("retry", Dbg.ioctlRetry ⟨i, o⟩ = Dbg.ioctlRetry ⟨i', o'⟩)]
    | _, _ => []
  | _, _ => []

/-- The name of the type, as shown. -/
def _root_.Fuse.Shown.typeName : Shown → String
  | .attr _ => "NodeAttr"
  | .entry _ => "Entry"
  | .create _ => "CreateResponse"
  | .fuseInit _ => "FuseInitResponse"
  | .statfs _ => "StatfsAttributes"
  | .header _ => "ResponseHeader"
  | .delete _ => "Delete"
  | .invalidateEntry _ => "InvalidateEntry"
  | .invalidateInode _ => "InvalidateInode"
  | .poll _ => "Poll"
  | .readdirEntry _ => "ReaddirEntry"
  | .readdirplusEntry _ => "ReaddirEntry"
  | .retry _ => "IoctlRetry"
  | .slice _ => "IoctlSlice"
  | .cuseInit _ => "CuseInitResponse"
  | .ioctl _ _ => "IoctlResponse"
  | .readdirEntries _ | .readdirplusEntries _ | .names _ => ""

end Spec

theorem slices_inj {a b : List IoctlSlice} :
    Dbg.list (a.map Dbg.ioctlSlice) = Dbg.list (b.map Dbg.ioctlSlice) ↔ a = b :=
  ⟨fun h => (Dbg.map_inj Dbg.ioctlSlice_inj).1 (Dbg.list.inj h), fun h => by rw [h]⟩

theorem deviceNumber_inj {a b a' b' : UInt32} :
    Dbg.deviceNumber ⟨a, b⟩ = Dbg.deviceNumber ⟨a', b'⟩ ↔ (a, b) = (a', b') := by
  refine ⟨fun h => ?_, fun h => by cases h; rfl⟩
  obtain ⟨h1, h2⟩ := fields2 h
  exact Prod.ext (Dbg.u32_inj.1 h1) (Dbg.u32_inj.1 h2)

theorem attr_labels {a b : NodeAttr} {d d' : Dbg} (h : (Shown.attr a).Debug d) (h' : (Shown.attr b).Debug d') :
    LabelsTell "NodeAttr" d d' (ShownLabelled (.attr a) (.attr b)) := by
  simp only [Shown.Debug, NodeAttr.debug] at h h'
  obtain ⟨x_nodeId, h_nodeId, h⟩ := bind_ok_elim h
  obtain ⟨y_nodeId, g_nodeId, h'⟩ := bind_ok_elim h'
  obtain ⟨x_atime, h_atime, h⟩ := bind_ok_elim h
  obtain ⟨y_atime, g_atime, h'⟩ := bind_ok_elim h'
  obtain ⟨x_mtime, h_mtime, h⟩ := bind_ok_elim h
  obtain ⟨y_mtime, g_mtime, h'⟩ := bind_ok_elim h'
  obtain ⟨x_ctime, h_ctime, h⟩ := bind_ok_elim h
  obtain ⟨y_ctime, g_ctime, h'⟩ := bind_ok_elim h'
  refine ⟨_, _, (pure_ok_elim h).symm, (pure_ok_elim h').symm, ?_⟩
  refine List.forall_mem_cons.2 ⟨⟨_, _, .head _,
    .head _, Dbg.id_inj.trans (ok_iff h_nodeId g_nodeId)⟩, ?_⟩
  refine List.forall_mem_cons.2 ⟨⟨_, _, .tail _ (.head _),
    .tail _ (.head _), Dbg.mode_inj⟩, ?_⟩
  refine List.forall_mem_cons.2 ⟨⟨_, _, .tail _ (.tail _ (.head _)),
    .tail _ (.tail _ (.head _)), Dbg.u64_inj⟩, ?_⟩
  refine List.forall_mem_cons.2 ⟨⟨_, _, .tail _ (.tail _ (.tail _ (.head _))),
    .tail _ (.tail _ (.tail _ (.head _))), Dbg.time_inj.trans (ok_iff h_atime g_atime)⟩, ?_⟩
  refine List.forall_mem_cons.2 ⟨⟨_, _, .tail _ (.tail _ (.tail _ (.tail _ (.head _)))),
    .tail _ (.tail _ (.tail _ (.tail _ (.head _)))), Dbg.time_inj.trans (ok_iff h_mtime g_mtime)⟩, ?_⟩
  refine List.forall_mem_cons.2 ⟨⟨_, _, .tail _ (.tail _ (.tail _ (.tail _ (.tail _ (.head _))))),
    .tail _ (.tail _ (.tail _ (.tail _ (.tail _ (.head _))))), Dbg.time_inj.trans (ok_iff h_ctime g_ctime)⟩, ?_⟩
  refine List.forall_mem_cons.2 ⟨⟨_, _, .tail _ (.tail _ (.tail _ (.tail _ (.tail _ (.tail _ (.head _)))))),
    .tail _ (.tail _ (.tail _ (.tail _ (.tail _ (.tail _ (.head _)))))), Dbg.u32_inj⟩, ?_⟩
  refine List.forall_mem_cons.2 ⟨⟨_, _, .tail _ (.tail _ (.tail _ (.tail _ (.tail _ (.tail _ (.tail _ (.head _))))))),
    .tail _ (.tail _ (.tail _ (.tail _ (.tail _ (.tail _ (.tail _ (.head _))))))), Dbg.u32_inj⟩, ?_⟩
  refine List.forall_mem_cons.2 ⟨⟨_, _, .tail _ (.tail _ (.tail _ (.tail _ (.tail _ (.tail _ (.tail _ (.tail _ (.head _)))))))),
    .tail _ (.tail _ (.tail _ (.tail _ (.tail _ (.tail _ (.tail _ (.tail _ (.head _)))))))), Dbg.u32_inj⟩, ?_⟩
  refine List.forall_mem_cons.2 ⟨⟨_, _, .tail _ (.tail _ (.tail _ (.tail _ (.tail _ (.tail _ (.tail _ (.tail _ (.tail _ (.head _))))))))),
    .tail _ (.tail _ (.tail _ (.tail _ (.tail _ (.tail _ (.tail _ (.tail _ (.tail _ (.head _))))))))), Dbg.u32_inj⟩, ?_⟩
  refine List.forall_mem_cons.2 ⟨⟨_, _, .tail _ (.tail _ (.tail _ (.tail _ (.tail _ (.tail _ (.tail _ (.tail _ (.tail _ (.tail _ (.head _)))))))))),
    .tail _ (.tail _ (.tail _ (.tail _ (.tail _ (.tail _ (.tail _ (.tail _ (.tail _ (.tail _ (.head _)))))))))), Dbg.u64_inj⟩, ?_⟩
  refine List.forall_mem_cons.2 ⟨⟨_, _, .tail _ (.tail _ (.tail _ (.tail _ (.tail _ (.tail _ (.tail _ (.tail _ (.tail _ (.tail _ (.tail _ (.head _))))))))))),
    .tail _ (.tail _ (.tail _ (.tail _ (.tail _ (.tail _ (.tail _ (.tail _ (.tail _ (.tail _ (.tail _ (.head _))))))))))), Dbg.u32_inj⟩, ?_⟩
  refine List.forall_mem_cons.2 ⟨⟨_, _, .tail _ (.tail _ (.tail _ (.tail _ (.tail _ (.tail _ (.tail _ (.tail _ (.tail _ (.tail _ (.tail _ (.tail _ (.head _)))))))))))),
    .tail _ (.tail _ (.tail _ (.tail _ (.tail _ (.tail _ (.tail _ (.tail _ (.tail _ (.tail _ (.tail _ (.tail _ (.head _)))))))))))), Dbg.flags32_inj (t := .attribute) rfl⟩, ?_⟩
  exact fun x hx => nomatch hx

theorem entry_labels {a b : Entry} {d d' : Dbg} (h : (Shown.entry a).Debug d) (h' : (Shown.entry b).Debug d') :
    LabelsTell "Entry" d d' (ShownLabelled (.entry a) (.entry b)) := by
  simp only [Shown.Debug, Entry.debug] at h h'
  obtain ⟨x_attributes, h_attributes, h⟩ := bind_ok_elim h
  obtain ⟨y_attributes, g_attributes, h'⟩ := bind_ok_elim h'
  refine ⟨_, _, (pure_ok_elim h).symm, (pure_ok_elim h').symm, ?_⟩
  refine List.forall_mem_cons.2 ⟨⟨_, _, .head _,
    .head _, Dbg.u64_inj⟩, ?_⟩
  refine List.forall_mem_cons.2 ⟨⟨_, _, .tail _ (.head _),
    .tail _ (.head _), ok_iff h_attributes g_attributes⟩, ?_⟩
  refine List.forall_mem_cons.2 ⟨⟨_, _, .tail _ (.tail _ (.head _)),
    .tail _ (.tail _ (.head _)), Dbg.duration_inj⟩, ?_⟩
  refine List.forall_mem_cons.2 ⟨⟨_, _, .tail _ (.tail _ (.tail _ (.head _))),
    .tail _ (.tail _ (.tail _ (.head _))), Dbg.duration_inj⟩, ?_⟩
  exact fun x hx => nomatch hx

theorem create_labels {a b : CreateResponse} {d d' : Dbg} (h : (Shown.create a).Debug d) (h' : (Shown.create b).Debug d') :
    LabelsTell "CreateResponse" d d' (ShownLabelled (.create a) (.create b)) := by
  simp only [Shown.Debug, CreateResponse.debug] at h h'
  obtain ⟨x_entry, h_entry, h⟩ := bind_ok_elim h
  obtain ⟨y_entry, g_entry, h'⟩ := bind_ok_elim h'
  refine ⟨_, _, (pure_ok_elim h).symm, (pure_ok_elim h').symm, ?_⟩
  refine List.forall_mem_cons.2 ⟨⟨_, _, .head _,
    .head _, ok_iff h_entry g_entry⟩, ?_⟩
  refine List.forall_mem_cons.2 ⟨⟨_, _, .tail _ (.head _),
    .tail _ (.head _), Dbg.u64_inj⟩, ?_⟩
  refine List.forall_mem_cons.2 ⟨⟨_, _, .tail _ (.tail _ (.head _)),
    .tail _ (.tail _ (.head _)), Dbg.flags32_inj (t := .createResponse) rfl⟩, ?_⟩
  exact fun x hx => nomatch hx

theorem fuseInit_labels {a b : FuseInitResponse} {d d' : Dbg} (h : (Shown.fuseInit a).Debug d) (h' : (Shown.fuseInit b).Debug d') :
    LabelsTell "FuseInitResponse" d d' (ShownLabelled (.fuseInit a) (.fuseInit b)) := by
  simp only [Shown.Debug, Dbg.fuseInitResponse] at h h'
  refine ⟨_, _, h, h', ?_⟩
  refine List.forall_mem_cons.2 ⟨⟨_, _, .head _,
    .head _, Dbg.u32_inj⟩, ?_⟩
  refine List.forall_mem_cons.2 ⟨⟨_, _, .tail _ (.head _),
    .tail _ (.head _), Dbg.flags64_inj (t := .fuseInit) rfl⟩, ?_⟩
  refine List.forall_mem_cons.2 ⟨⟨_, _, .tail _ (.tail _ (.head _)),
    .tail _ (.tail _ (.head _)), Dbg.u16_inj⟩, ?_⟩
  refine List.forall_mem_cons.2 ⟨⟨_, _, .tail _ (.tail _ (.tail _ (.head _))),
    .tail _ (.tail _ (.tail _ (.head _))), Dbg.u16_inj⟩, ?_⟩
  refine List.forall_mem_cons.2 ⟨⟨_, _, .tail _ (.tail _ (.tail _ (.tail _ (.head _)))),
    .tail _ (.tail _ (.tail _ (.tail _ (.head _)))), Dbg.u32_inj⟩, ?_⟩
  refine List.forall_mem_cons.2 ⟨⟨_, _, .tail _ (.tail _ (.tail _ (.tail _ (.tail _ (.head _))))),
    .tail _ (.tail _ (.tail _ (.tail _ (.tail _ (.head _))))), Dbg.u32_inj⟩, ?_⟩
  exact fun x hx => nomatch hx

theorem statfs_labels {a b : StatfsAttributes} {d d' : Dbg} (h : (Shown.statfs a).Debug d) (h' : (Shown.statfs b).Debug d') :
    LabelsTell "StatfsAttributes" d d' (ShownLabelled (.statfs a) (.statfs b)) := by
  simp only [Shown.Debug, Dbg.statfs] at h h'
  refine ⟨_, _, h, h', ?_⟩
  refine List.forall_mem_cons.2 ⟨⟨_, _, .head _,
    .head _, Dbg.u64_inj⟩, ?_⟩
  refine List.forall_mem_cons.2 ⟨⟨_, _, .tail _ (.head _),
    .tail _ (.head _), Dbg.u32_inj⟩, ?_⟩
  refine List.forall_mem_cons.2 ⟨⟨_, _, .tail _ (.tail _ (.head _)),
    .tail _ (.tail _ (.head _)), Dbg.u64_inj⟩, ?_⟩
  refine List.forall_mem_cons.2 ⟨⟨_, _, .tail _ (.tail _ (.tail _ (.head _))),
    .tail _ (.tail _ (.tail _ (.head _))), Dbg.u64_inj⟩, ?_⟩
  refine List.forall_mem_cons.2 ⟨⟨_, _, .tail _ (.tail _ (.tail _ (.tail _ (.head _)))),
    .tail _ (.tail _ (.tail _ (.tail _ (.head _)))), Dbg.u32_inj⟩, ?_⟩
  refine List.forall_mem_cons.2 ⟨⟨_, _, .tail _ (.tail _ (.tail _ (.tail _ (.tail _ (.head _))))),
    .tail _ (.tail _ (.tail _ (.tail _ (.tail _ (.head _))))), Dbg.u64_inj⟩, ?_⟩
  refine List.forall_mem_cons.2 ⟨⟨_, _, .tail _ (.tail _ (.tail _ (.tail _ (.tail _ (.tail _ (.head _)))))),
    .tail _ (.tail _ (.tail _ (.tail _ (.tail _ (.tail _ (.head _)))))), Dbg.u64_inj⟩, ?_⟩
  refine List.forall_mem_cons.2 ⟨⟨_, _, .tail _ (.tail _ (.tail _ (.tail _ (.tail _ (.tail _ (.tail _ (.head _))))))),
    .tail _ (.tail _ (.tail _ (.tail _ (.tail _ (.tail _ (.tail _ (.head _))))))), Dbg.u32_inj⟩, ?_⟩
  exact fun x hx => nomatch hx

theorem header_labels {a b : ResponseHeader} {d d' : Dbg} (h : (Shown.header a).Debug d) (h' : (Shown.header b).Debug d') :
    LabelsTell "ResponseHeader" d d' (ShownLabelled (.header a) (.header b)) := by
  simp only [Shown.Debug, ResponseHeader.debug] at h h'
  obtain ⟨x_responseLen, h_responseLen, h⟩ := bind_ok_elim h
  obtain ⟨y_responseLen, g_responseLen, h'⟩ := bind_ok_elim h'
  refine ⟨_, _, (pure_ok_elim h).symm, (pure_ok_elim h').symm, ?_⟩
  refine List.forall_mem_cons.2 ⟨⟨_, _, .head _,
    .head _, Dbg.option_inj Dbg.id_inj⟩, ?_⟩
  refine List.forall_mem_cons.2 ⟨⟨_, _, .tail _ (.head _),
    .tail _ (.head _), Dbg.pid_inj.trans (ok_iff h_responseLen g_responseLen)⟩, ?_⟩
  refine List.forall_mem_cons.2 ⟨⟨_, _, .tail _ (.tail _ (.head _)),
    .tail _ (.tail _ (.head _)), Dbg.option_inj Dbg.errno_inj⟩, ?_⟩
  exact fun x hx => nomatch hx

theorem delete_labels {a b : NotifyDelete} {d d' : Dbg} (h : (Shown.delete a).Debug d) (h' : (Shown.delete b).Debug d') :
    LabelsTell "Delete" d d' (ShownLabelled (.delete a) (.delete b)) := by
  simp only [Shown.Debug, NotifyDelete.debug] at h h'
  obtain ⟨x_parentId, h_parentId, h⟩ := bind_ok_elim h
  obtain ⟨y_parentId, g_parentId, h'⟩ := bind_ok_elim h'
  obtain ⟨x_nodeId, h_nodeId, h⟩ := bind_ok_elim h
  obtain ⟨y_nodeId, g_nodeId, h'⟩ := bind_ok_elim h'
  refine ⟨_, _, (pure_ok_elim h).symm, (pure_ok_elim h').symm, ?_⟩
  refine List.forall_mem_cons.2 ⟨⟨_, _, .head _,
    .head _, Dbg.id_inj.trans (ok_iff h_parentId g_parentId)⟩, ?_⟩
  refine List.forall_mem_cons.2 ⟨⟨_, _, .tail _ (.head _),
    .tail _ (.head _), Dbg.id_inj.trans (ok_iff h_nodeId g_nodeId)⟩, ?_⟩
  refine List.forall_mem_cons.2 ⟨⟨_, _, .tail _ (.tail _ (.head _)),
    .tail _ (.tail _ (.head _)), Dbg.name_inj⟩, ?_⟩
  exact fun x hx => nomatch hx

theorem invalidateEntry_labels {a b : InvalidateEntry} {d d' : Dbg} (h : (Shown.invalidateEntry a).Debug d) (h' : (Shown.invalidateEntry b).Debug d') :
    LabelsTell "InvalidateEntry" d d' (ShownLabelled (.invalidateEntry a) (.invalidateEntry b)) := by
  simp only [Shown.Debug, InvalidateEntry.debug] at h h'
  obtain ⟨x_parentId, h_parentId, h⟩ := bind_ok_elim h
  obtain ⟨y_parentId, g_parentId, h'⟩ := bind_ok_elim h'
  refine ⟨_, _, (pure_ok_elim h).symm, (pure_ok_elim h').symm, ?_⟩
  refine List.forall_mem_cons.2 ⟨⟨_, _, .head _,
    .head _, Dbg.id_inj.trans (ok_iff h_parentId g_parentId)⟩, ?_⟩
  refine List.forall_mem_cons.2 ⟨⟨_, _, .tail _ (.head _),
    .tail _ (.head _), Dbg.name_inj⟩, ?_⟩
  exact fun x hx => nomatch hx

theorem invalidateInode_labels {a b : InvalidateInode} {d d' : Dbg} (h : (Shown.invalidateInode a).Debug d) (h' : (Shown.invalidateInode b).Debug d') :
    LabelsTell "InvalidateInode" d d' (ShownLabelled (.invalidateInode a) (.invalidateInode b)) := by
  simp only [Shown.Debug, InvalidateInode.debug] at h h'
  obtain ⟨x_nodeId, h_nodeId, h⟩ := bind_ok_elim h
  obtain ⟨y_nodeId, g_nodeId, h'⟩ := bind_ok_elim h'
  refine ⟨_, _, (pure_ok_elim h).symm, (pure_ok_elim h').symm, ?_⟩
  refine List.forall_mem_cons.2 ⟨⟨_, _, .head _,
    .head _, Dbg.id_inj.trans (ok_iff h_nodeId g_nodeId)⟩, ?_⟩
  refine List.forall_mem_cons.2 ⟨⟨_, _, .tail _ (.head _),
    .tail _ (.head _), Dbg.i64_inj⟩, ?_⟩
  refine List.forall_mem_cons.2 ⟨⟨_, _, .tail _ (.tail _ (.head _)),
    .tail _ (.tail _ (.head _)), Dbg.i64_inj⟩, ?_⟩
  exact fun x hx => nomatch hx

theorem poll_labels {a b : NotifyPoll} {d d' : Dbg} (h : (Shown.poll a).Debug d) (h' : (Shown.poll b).Debug d') :
    LabelsTell "Poll" d d' (ShownLabelled (.poll a) (.poll b)) := by
  simp only [Shown.Debug, Dbg.poll] at h h'
  refine ⟨_, _, h, h', ?_⟩
  refine List.forall_mem_cons.2 ⟨⟨_, _, .head _,
    .head _, Dbg.u64_inj⟩, ?_⟩
  exact fun x hx => nomatch hx

theorem readdirEntry_labels {a b : ReaddirEntry} {d d' : Dbg} (h : (Shown.readdirEntry a).Debug d) (h' : (Shown.readdirEntry b).Debug d') :
    LabelsTell "ReaddirEntry" d d' (ShownLabelled (.readdirEntry a) (.readdirEntry b)) := by
  simp only [Shown.Debug, readdirEntryDebug] at h h'
  obtain ⟨x_nodeId, h_nodeId, h⟩ := bind_ok_elim h
  obtain ⟨y_nodeId, g_nodeId, h'⟩ := bind_ok_elim h'
  obtain ⟨x_offset, h_offset, h⟩ := bind_ok_elim h
  obtain ⟨y_offset, g_offset, h'⟩ := bind_ok_elim h'
  refine ⟨_, _, (pure_ok_elim h).symm, (pure_ok_elim h').symm, ?_⟩
  refine List.forall_mem_cons.2 ⟨⟨_, _, .head _,
    .head _, Dbg.id_inj.trans (ok_iff h_nodeId g_nodeId)⟩, ?_⟩
  refine List.forall_mem_cons.2 ⟨⟨_, _, .tail _ (.head _),
    .tail _ (.head _), Dbg.id_inj.trans (ok_iff h_offset g_offset)⟩, ?_⟩
  refine List.forall_mem_cons.2 ⟨⟨_, _, .tail _ (.tail _ (.head _)),
    .tail _ (.tail _ (.head _)), Dbg.option_inj Dbg.fileType_inj⟩, ?_⟩
  refine List.forall_mem_cons.2 ⟨⟨_, _, .tail _ (.tail _ (.tail _ (.head _))),
    .tail _ (.tail _ (.tail _ (.head _))), Dbg.name_inj⟩, ?_⟩
  exact fun x hx => nomatch hx

theorem readdirplusEntry_labels {a b : ReaddirplusEntry} {d d' : Dbg} (h : (Shown.readdirplusEntry a).Debug d) (h' : (Shown.readdirplusEntry b).Debug d') :
    LabelsTell "ReaddirEntry" d d' (ShownLabelled (.readdirplusEntry a) (.readdirplusEntry b)) := by
  simp only [Shown.Debug, readdirplusEntryDebug] at h h'
  obtain ⟨x_offset, h_offset, h⟩ := bind_ok_elim h
  obtain ⟨y_offset, g_offset, h'⟩ := bind_ok_elim h'
  obtain ⟨x_entry, h_entry, h⟩ := bind_ok_elim h
  obtain ⟨y_entry, g_entry, h'⟩ := bind_ok_elim h'
  refine ⟨_, _, (pure_ok_elim h).symm, (pure_ok_elim h').symm, ?_⟩
  refine List.forall_mem_cons.2 ⟨⟨_, _, .head _,
    .head _, Dbg.name_inj⟩, ?_⟩
  refine List.forall_mem_cons.2 ⟨⟨_, _, .tail _ (.head _),
    .tail _ (.head _), Dbg.id_inj.trans (ok_iff h_offset g_offset)⟩, ?_⟩
  refine List.forall_mem_cons.2 ⟨⟨_, _, .tail _ (.tail _ (.head _)),
    .tail _ (.tail _ (.head _)), ok_iff h_entry g_entry⟩, ?_⟩
  exact fun x hx => nomatch hx

theorem retry_labels {a b : IoctlRetry} {d d' : Dbg} (h : (Shown.retry a).Debug d) (h' : (Shown.retry b).Debug d') :
    LabelsTell "IoctlRetry" d d' (ShownLabelled (.retry a) (.retry b)) := by
  simp only [Shown.Debug, Dbg.ioctlRetry] at h h'
  refine ⟨_, _, h, h', ?_⟩
  refine List.forall_mem_cons.2 ⟨⟨_, _, .head _,
    .head _, slices_inj⟩, ?_⟩
  refine List.forall_mem_cons.2 ⟨⟨_, _, .tail _ (.head _),
    .tail _ (.head _), slices_inj⟩, ?_⟩
  exact fun x hx => nomatch hx

theorem slice_labels {a b : IoctlSlice} {d d' : Dbg} (h : (Shown.slice a).Debug d) (h' : (Shown.slice b).Debug d') :
    LabelsTell "IoctlSlice" d d' (ShownLabelled (.slice a) (.slice b)) := by
  simp only [Shown.Debug, Dbg.ioctlSlice] at h h'
  refine ⟨_, _, h, h', ?_⟩
  refine List.forall_mem_cons.2 ⟨⟨_, _, .head _,
    .head _, Dbg.hex64_inj⟩, ?_⟩
  refine List.forall_mem_cons.2 ⟨⟨_, _, .tail _ (.head _),
    .tail _ (.head _), Dbg.u64_inj⟩, ?_⟩
  exact fun x hx => nomatch hx

theorem cuseInit_labels {a b : CuseInitResponse} {d d' : Dbg} (h : (Shown.cuseInit a).Debug d)
    (h' : (Shown.cuseInit b).Debug d') :
    LabelsTell "CuseInitResponse" d d' (ShownLabelled (.cuseInit a) (.cuseInit b)) := by
  simp only [Shown.Debug, Dbg.cuseInitResponse] at h h'
  refine ⟨_, _, h, h', fun x hx => ?_⟩
  simp only [ShownLabelled] at hx
  have hx' := List.mem_append.1 hx
  clear hx
  rcases hx' with hx | hx
  · split at hx
    · rename_i m n hm hn
      rw [hm, hn]
      cases List.mem_singleton.1 hx
      exact ⟨_, _, .head _, .head _, ⟨fun h => Dbg.quoted.inj h, fun h => congrArg Dbg.quoted h⟩⟩
    · cases hx
  · revert x
    refine List.forall_mem_cons.2 ⟨⟨_, _, List.mem_append_right _ (.head _),
      List.mem_append_right _ (.head _), Dbg.version_inj⟩, ?_⟩
    refine List.forall_mem_cons.2 ⟨⟨_, _, List.mem_append_right _ (.tail _ (.head _)),
      List.mem_append_right _ (.tail _ (.head _)), Dbg.flags32_inj (t := .cuseInit) rfl⟩, ?_⟩
    refine List.forall_mem_cons.2 ⟨⟨_, _, List.mem_append_right _ (.tail _ (.tail _ (.head _))),
      List.mem_append_right _ (.tail _ (.tail _ (.head _))), Dbg.u32_inj⟩, ?_⟩
    refine List.forall_mem_cons.2 ⟨⟨_, _, List.mem_append_right _ (.tail _ (.tail _ (.tail _ (.head _)))),
      List.mem_append_right _ (.tail _ (.tail _ (.tail _ (.head _)))), Dbg.u32_inj⟩, ?_⟩
    refine List.forall_mem_cons.2 ⟨⟨_, _, List.mem_append_right _ (.tail _ (.tail _ (.tail _ (.tail _ (.head _))))),
      List.mem_append_right _ (.tail _ (.tail _ (.tail _ (.tail _ (.head _))))), deviceNumber_inj⟩, ?_⟩
    exact fun x hx => nomatch hx

theorem ioctl_labels {a b : IoctlResponse} {s t : Bool} {d d' : Dbg} (h : (Shown.ioctl a s).Debug d)
    (h' : (Shown.ioctl b t).Debug d') :
    LabelsTell "IoctlResponse" d d' (ShownLabelled (.ioctl a s) (.ioctl b t)) := by
  simp only [Shown.Debug, Dbg.ioctlResponse] at h h'
  refine ⟨_, _, h, h', fun x hx => ?_⟩
  simp only [ShownLabelled] at hx
  split at hx
  · rename_i p q hp hq
    rw [hp, hq]
    clear hp hq
    revert x
    refine List.forall_mem_cons.2 ⟨⟨_, _, .head _, .head _, Dbg.i32_inj⟩, ?_⟩
    refine List.forall_mem_cons.2 ⟨⟨_, _, .tail _ (.head _), .tail _ (.head _), Dbg.byteList_inj⟩, ?_⟩
    exact fun x hx => nomatch hx
  · rename_i hp hq
    rw [hp, hq]
    have hx' := List.mem_append.1 hx
    clear hx
    rcases hx' with hx | hx
    · split at hx
      · rename_i hst
        obtain ⟨rfl, rfl⟩ := hst
        cases List.mem_singleton.1 hx
        exact ⟨_, _, .head _, .head _, Dbg.i32_inj⟩
      · cases hx
    · cases List.mem_singleton.1 hx
      exact ⟨_, _, List.mem_append_right _ (.head _), List.mem_append_right _ (.head _), Iff.rfl⟩
  · cases hx

theorem labelsTell_single {n : String} {d d' : Dbg} {l : List (String × Prop)} (h : LabelsTell n d d' l)
    {x : String × Prop} (hx : x ∈ l) : LabelsTell n d d' [x] := by
  obtain ⟨ds, ds', h1, h2, h3⟩ := h
  refine ⟨ds, ds', h1, h2, fun y hy => ?_⟩
  cases List.mem_singleton.1 hy
  exact h3 _ hx

/-- **C72**, labels: the text of a response, a notification or a part of one starts with the name of its type (a
`ReaddirplusEntry` with that of the other entry) and shows the value of each accessor behind the name of that accessor: of
two values of a type, what stands behind the name of an accessor is equal if and only if the accessor returns the same
for both. -/
theorem C72_labels {s s' : Shown} {d d' : Dbg} (h : s.Debug d) (h' : s'.Debug d') (x : String × Prop)
    (hx : x ∈ ShownLabelled s s') : LabelsTell s.typeName d d' [x] := by
  cases s with
  | attr a =>
    cases s' with
    | attr b => exact labelsTell_single (attr_labels h h') hx
    | _ => cases hx
  | entry a =>
    cases s' with
    | entry b => exact labelsTell_single (entry_labels h h') hx
    | _ => cases hx
  | create a =>
    cases s' with
    | create b => exact labelsTell_single (create_labels h h') hx
    | _ => cases hx
  | fuseInit a =>
    cases s' with
    | fuseInit b => exact labelsTell_single (fuseInit_labels h h') hx
    | _ => cases hx
  | statfs a =>
    cases s' with
    | statfs b => exact labelsTell_single (statfs_labels h h') hx
    | _ => cases hx
  | header a =>
    cases s' with
    | header b => exact labelsTell_single (header_labels h h') hx
    | _ => cases hx
  | delete a =>
    cases s' with
    | delete b => exact labelsTell_single (delete_labels h h') hx
    | _ => cases hx
  | invalidateEntry a =>
    cases s' with
    | invalidateEntry b => exact labelsTell_single (invalidateEntry_labels h h') hx
    | _ => cases hx
  | invalidateInode a =>
    cases s' with
    | invalidateInode b => exact labelsTell_single (invalidateInode_labels h h') hx
    | _ => cases hx
  | poll a =>
    cases s' with
    | poll b => exact labelsTell_single (poll_labels h h') hx
    | _ => cases hx
  | readdirEntry a =>
    cases s' with
    | readdirEntry b => exact labelsTell_single (readdirEntry_labels h h') hx
    | _ => cases hx
  | readdirplusEntry a =>
    cases s' with
    | readdirplusEntry b => exact labelsTell_single (readdirplusEntry_labels h h') hx
    | _ => cases hx
  | retry a =>
    cases s' with
    | retry b => exact labelsTell_single (retry_labels h h') hx
    | _ => cases hx
  | slice a =>
    cases s' with
    | slice b => exact labelsTell_single (slice_labels h h') hx
    | _ => cases hx
  | cuseInit a =>
    cases s' with
    | cuseInit b => exact labelsTell_single (cuseInit_labels h h') hx
    | _ => cases hx
  | ioctl a t =>
    cases s' with
    | ioctl b u => exact labelsTell_single (ioctl_labels h h') hx
    | _ => cases hx
  | _ => cases s' <;> cases hx

/-! ## Cases -/

/-- Behind `handle` stands the handle. -/
example {a b : CreateResponse} {d d' : Dbg} (h : a.debug = .ok d) (h' : b.debug = .ok d') :
    LabelsTell "CreateResponse" d d' [("handle", a.handle = b.handle)] :=
  C72_labels (s := .create a) (s' := .create b) h h' _ (.tail _ (.head _))

example : ∃ d, (Shown.create ⟨shownEntry, { fh := 7, open_flags := 1 }⟩).Debug d ∧ d.text = text
    ("CreateResponse { entry: Entry { generation: 0, attributes: NodeAttr { node_id: 5, mode: 0o0, size: 0, " ++
      "atime: UnixTime(-7.000000003), mtime: UnixTime(0.000000000), ctime: UnixTime(0.000000000), link_count: 0, " ++
      "user_id: 0, group_id: 0, device_number: 0, block_count: 0, block_size: 0, flags: AttributeFlags {} }, " ++
      "cache_timeout: 1.5s, attribute_cache_timeout: 0ns }, handle: 7, flags: CreateResponseFlags {DIRECT_IO} }") := by
  refine ⟨_, rfl, by decide +kernel⟩

end Fuse
