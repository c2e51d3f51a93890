import Verif.PropDebugReq

/-!
# C70, continued: the texts of two requests are equal only if the requests have the same values
-/

namespace Fuse
open Spec

/-! ## Each type of request -/

theorem fields1 {n : String} {s0 : String} {a0 b0 : Dbg} (h : Dbg.record n [.field s0 a0] =
    Dbg.record n [.field s0 b0]) :
    a0 = b0 := by
  have h := (Dbg.record.inj h).2
  exact (Dbg.field.inj (List.cons.inj h).1).2

theorem fields2 {n : String} {s0 s1 : String} {a0 b0 a1 b1 : Dbg} (h : Dbg.record n [.field s0 a0, .field s1 a1] =
    Dbg.record n [.field s0 b0, .field s1 b1]) :
    a0 = b0 ∧ a1 = b1 := by
  have h := (Dbg.record.inj h).2
  simpa only [List.cons.injEq, Dbg.field.injEq, true_and, and_true] using h

theorem fields3 {n : String} {s0 s1 s2 : String} {a0 b0 a1 b1 a2 b2 : Dbg}
    (h : Dbg.record n [.field s0 a0, .field s1 a1, .field s2 a2] =
    Dbg.record n [.field s0 b0, .field s1 b1, .field s2 b2]) :
    a0 = b0 ∧ a1 = b1 ∧ a2 = b2 := by
  have h := (Dbg.record.inj h).2
  simpa only [List.cons.injEq, Dbg.field.injEq, true_and, and_true] using h

theorem fields4 {n : String} {s0 s1 s2 s3 : String} {a0 b0 a1 b1 a2 b2 a3 b3 : Dbg}
    (h : Dbg.record n [.field s0 a0, .field s1 a1, .field s2 a2, .field s3 a3] =
    Dbg.record n [.field s0 b0, .field s1 b1, .field s2 b2, .field s3 b3]) :
    a0 = b0 ∧ a1 = b1 ∧ a2 = b2 ∧ a3 = b3 := by
  have h := (Dbg.record.inj h).2
  simpa only [List.cons.injEq, Dbg.field.injEq, true_and, and_true] using h

theorem fields5 {n : String} {s0 s1 s2 s3 s4 : String} {a0 b0 a1 b1 a2 b2 a3 b3 a4 b4 : Dbg}
    (h : Dbg.record n [.field s0 a0, .field s1 a1, .field s2 a2, .field s3 a3, .field s4 a4] =
    Dbg.record n [.field s0 b0, .field s1 b1, .field s2 b2, .field s3 b3, .field s4 b4]) :
    a0 = b0 ∧ a1 = b1 ∧ a2 = b2 ∧ a3 = b3 ∧ a4 = b4 := by
  have h := (Dbg.record.inj h).2
  simpa only [List.cons.injEq, Dbg.field.injEq, true_and, and_true] using h

theorem fields6 {n : String} {s0 s1 s2 s3 s4 s5 : String} {a0 b0 a1 b1 a2 b2 a3 b3 a4 b4 a5 b5 : Dbg}
    (h : Dbg.record n [.field s0 a0, .field s1 a1, .field s2 a2, .field s3 a3, .field s4 a4, .field s5 a5] =
    Dbg.record n [.field s0 b0, .field s1 b1, .field s2 b2, .field s3 b3, .field s4 b4, .field s5 b5]) :
    a0 = b0 ∧ a1 = b1 ∧ a2 = b2 ∧ a3 = b3 ∧ a4 = b4 ∧ a5 = b5 := by
  have h := (Dbg.record.inj h).2
  simpa only [List.cons.injEq, Dbg.field.injEq, true_and, and_true] using h

theorem fields7 {n : String} {s0 s1 s2 s3 s4 s5 s6 : String} {a0 b0 a1 b1 a2 b2 a3 b3 a4 b4 a5 b5 a6 b6 : Dbg}
    (h : Dbg.record n [.field s0 a0, .field s1 a1, .field s2 a2, .field s3 a3, .field s4 a4, .field s5 a5, .field s6 a6] =
    Dbg.record n [.field s0 b0, .field s1 b1, .field s2 b2, .field s3 b3, .field s4 b4, .field s5 b5, .field s6 b6]) :
    a0 = b0 ∧ a1 = b1 ∧ a2 = b2 ∧ a3 = b3 ∧ a4 = b4 ∧ a5 = b5 ∧ a6 = b6 := by
  have h := (Dbg.record.inj h).2
  simpa only [List.cons.injEq, Dbg.field.injEq, true_and, and_true] using h

theorem fields8 {n : String} {s0 s1 s2 s3 s4 s5 s6 s7 : String} {a0 b0 a1 b1 a2 b2 a3 b3 a4 b4 a5 b5 a6 b6 a7 b7 : Dbg}
    (h : Dbg.record n [.field s0 a0, .field s1 a1, .field s2 a2, .field s3 a3, .field s4 a4, .field s5 a5, .field s6 a6, .field s7 a7] =
    Dbg.record n [.field s0 b0, .field s1 b1, .field s2 b2, .field s3 b3, .field s4 b4, .field s5 b5, .field s6 b6, .field s7 b7]) :
    a0 = b0 ∧ a1 = b1 ∧ a2 = b2 ∧ a3 = b3 ∧ a4 = b4 ∧ a5 = b5 ∧ a6 = b6 ∧ a7 = b7 := by
  have h := (Dbg.record.inj h).2
  simpa only [List.cons.injEq, Dbg.field.injEq, true_and, and_true] using h

theorem fields12 {n : String} {s0 s1 s2 s3 s4 s5 s6 s7 s8 s9 s10 s11 : String} {a0 b0 a1 b1 a2 b2 a3 b3 a4 b4 a5 b5 a6 b6 a7 b7 a8 b8 a9 b9 a10 b10 a11 b11 : Dbg}
    (h : Dbg.record n [.field s0 a0, .field s1 a1, .field s2 a2, .field s3 a3, .field s4 a4, .field s5 a5, .field s6 a6, .field s7 a7, .field s8 a8, .field s9 a9, .field s10 a10, .field s11 a11] =
    Dbg.record n [.field s0 b0, .field s1 b1, .field s2 b2, .field s3 b3, .field s4 b4, .field s5 b5, .field s6 b6, .field s7 b7, .field s8 b8, .field s9 b9, .field s10 b10, .field s11 b11]) :
    a0 = b0 ∧ a1 = b1 ∧ a2 = b2 ∧ a3 = b3 ∧ a4 = b4 ∧ a5 = b5 ∧ a6 = b6 ∧ a7 = b7 ∧ a8 = b8 ∧ a9 = b9 ∧ a10 = b10 ∧ a11 = b11 := by
  have h := (Dbg.record.inj h).2
  simpa only [List.cons.injEq, Dbg.field.injEq, true_and, and_true] using h

theorem AccessRequest.debug_inj {a b : AccessRequest} {d : Dbg} (h : a.debug = .ok d) (h' : b.debug = .ok d) :
    a.nodeId = b.nodeId ∧ a.mask = b.mask := by
  simp only [AccessRequest.debug] at h h'
  have h := (pure_ok_elim h).trans (pure_ok_elim h').symm
  obtain ⟨e0, e1⟩ := fields2 h
  exact ⟨Dbg.id_inj.mp e0, Dbg.u32_inj.mp e1⟩

theorem BmapRequest.debug_inj {a b : BmapRequest} {d : Dbg} (h : a.debug = .ok d) (h' : b.debug = .ok d) :
    a.nodeId = b.nodeId ∧ a.block = b.block ∧ a.blockSize = b.blockSize := by
  simp only [BmapRequest.debug] at h h'
  obtain ⟨x0, h0, h⟩ := bind_ok_elim h
  obtain ⟨y0, g0, h'⟩ := bind_ok_elim h'
  have h := (pure_ok_elim h).trans (pure_ok_elim h').symm
  obtain ⟨e0, e1, e2⟩ := fields3 h
  exact ⟨by rw [h0, g0, Dbg.id_inj.mp e0], Dbg.u64_inj.mp e1, Dbg.u32_inj.mp e2⟩

theorem CopyFileRangeRequest.debug_inj {a b : CopyFileRangeRequest} {d : Dbg} (h : a.debug = .ok d)
    (h' : b.debug = .ok d) :
    a.inputNodeId = b.inputNodeId ∧ a.inputHandle = b.inputHandle ∧ a.inputOffset = b.inputOffset ∧
    a.outputNodeId = b.outputNodeId ∧ a.outputHandle = b.outputHandle ∧ a.outputOffset = b.outputOffset ∧
    a.len = b.len ∧ a.flags = b.flags := by
  simp only [CopyFileRangeRequest.debug] at h h'
  obtain ⟨x0, h0, h⟩ := bind_ok_elim h
  obtain ⟨y0, g0, h'⟩ := bind_ok_elim h'
  obtain ⟨x3, h3, h⟩ := bind_ok_elim h
  obtain ⟨y3, g3, h'⟩ := bind_ok_elim h'
  have h := (pure_ok_elim h).trans (pure_ok_elim h').symm
  obtain ⟨e0, e1, e2, e3, e4, e5, e6, e7⟩ := fields8 h
  exact ⟨by rw [h0, g0, Dbg.id_inj.mp e0], Dbg.u64_inj.mp e1, Dbg.u64_inj.mp e2, by rw [h3, g3, Dbg.id_inj.mp e3],
    Dbg.u64_inj.mp e4, Dbg.u64_inj.mp e5, Dbg.u64_inj.mp e6,
    (Dbg.flags64_inj (t := .copyFileRangeRequest) rfl).mp e7⟩

theorem FallocateRequest.debug_inj {a b : FallocateRequest} {d : Dbg} (h : a.debug = .ok d) (h' : b.debug = .ok d) :
    a.nodeId = b.nodeId ∧ a.handle = b.handle ∧ a.offset = b.offset ∧ a.length = b.length ∧
    a.fallocateFlags = b.fallocateFlags := by
  simp only [FallocateRequest.debug] at h h'
  obtain ⟨x0, h0, h⟩ := bind_ok_elim h
  obtain ⟨y0, g0, h'⟩ := bind_ok_elim h'
  have h := (pure_ok_elim h).trans (pure_ok_elim h').symm
  obtain ⟨e0, e1, e2, e3, e4⟩ := fields5 h
  exact ⟨by rw [h0, g0, Dbg.id_inj.mp e0], Dbg.u64_inj.mp e1, Dbg.u64_inj.mp e2, Dbg.u64_inj.mp e3,
    Dbg.hex32_inj.mp e4⟩

theorem ForgetRequest.debug_inj {a b : ForgetRequest} {d : Dbg} (h : a.debug = .ok d) (h' : b.debug = .ok d) :
    a.items = b.items := by
  simp only [ForgetRequest.debug] at h h'
  have h := (pure_ok_elim h).trans (pure_ok_elim h').symm
  have e0 := fields1 h
  exact Dbg.items_inj.mp e0

theorem FsyncdirRequest.debug_inj {a b : FsyncdirRequest} {d : Dbg} (h : a.debug = .ok d) (h' : b.debug = .ok d) :
    a.nodeId = b.nodeId ∧ a.handle = b.handle ∧ a.flags = b.flags := by
  simp only [FsyncdirRequest.debug] at h h'
  obtain ⟨x0, h0, h⟩ := bind_ok_elim h
  obtain ⟨y0, g0, h'⟩ := bind_ok_elim h'
  have h := (pure_ok_elim h).trans (pure_ok_elim h').symm
  obtain ⟨e0, e1, e2⟩ := fields3 h
  exact ⟨by rw [h0, g0, Dbg.id_inj.mp e0], Dbg.u64_inj.mp e1, (Dbg.flags32_inj (t := .fsyncdirRequest) rfl).mp e2⟩

theorem GetlkRequest.debug_inj {p : Platform} {a b : GetlkRequest} {d : Dbg} (h : a.debug p = .ok d)
    (h' : b.debug p = .ok d) :
    a.nodeId = b.nodeId ∧ a.handle = b.handle ∧ a.owner = b.owner ∧ a.lockMode = b.lockMode ∧
    a.lockRange = b.lockRange := by
  simp only [GetlkRequest.debug] at h h'
  obtain ⟨x0, h0, h⟩ := bind_ok_elim h
  obtain ⟨y0, g0, h'⟩ := bind_ok_elim h'
  have h := (pure_ok_elim h).trans (pure_ok_elim h').symm
  obtain ⟨e0, e1, e2, e3, e4⟩ := fields5 h
  exact ⟨by rw [h0, g0, Dbg.id_inj.mp e0], Dbg.u64_inj.mp e1, Dbg.hex64_inj.mp e2, Dbg.lockMode_inj.mp e3,
    Dbg.lockRange_inj.mp e4⟩

theorem GetxattrRequest.debug_inj {a b : GetxattrRequest} {d : Dbg} (h : a.debug = .ok d) (h' : b.debug = .ok d) :
    a.nodeId = b.nodeId ∧ a.size = b.size ∧ a.name = b.name := by
  simp only [GetxattrRequest.debug] at h h'
  obtain ⟨x0, h0, h⟩ := bind_ok_elim h
  obtain ⟨y0, g0, h'⟩ := bind_ok_elim h'
  have h := (pure_ok_elim h).trans (pure_ok_elim h').symm
  obtain ⟨e0, e1, e2⟩ := fields3 h
  exact ⟨by rw [h0, g0, Dbg.id_inj.mp e0], Dbg.size_inj.mp e1, Dbg.cstr_inj.mp e2⟩

theorem InterruptRequest.debug_inj {a b : InterruptRequest} {d : Dbg} (h : a.debug = .ok d) (h' : b.debug = .ok d) :
    a.requestId = b.requestId := by
  simp only [InterruptRequest.debug] at h h'
  obtain ⟨x0, h0, h⟩ := bind_ok_elim h
  obtain ⟨y0, g0, h'⟩ := bind_ok_elim h'
  have h := (pure_ok_elim h).trans (pure_ok_elim h').symm
  have e0 := fields1 h
  exact by rw [h0, g0, Dbg.id_inj.mp e0]

theorem LinkRequest.debug_inj {a b : LinkRequest} {d : Dbg} (h : a.debug = .ok d) (h' : b.debug = .ok d) :
    a.nodeId = b.nodeId ∧ a.newParentId = b.newParentId ∧ a.newName = b.newName := by
  simp only [LinkRequest.debug] at h h'
  have h := (pure_ok_elim h).trans (pure_ok_elim h').symm
  obtain ⟨e0, e1, e2⟩ := fields3 h
  exact ⟨Dbg.id_inj.mp e0, Dbg.id_inj.mp e1, Dbg.name_inj.mp e2⟩

theorem ListxattrRequest.debug_inj {a b : ListxattrRequest} {d : Dbg} (h : a.debug = .ok d) (h' : b.debug = .ok d) :
    a.nodeId = b.nodeId ∧ a.size = b.size := by
  simp only [ListxattrRequest.debug] at h h'
  obtain ⟨x0, h0, h⟩ := bind_ok_elim h
  obtain ⟨y0, g0, h'⟩ := bind_ok_elim h'
  have h := (pure_ok_elim h).trans (pure_ok_elim h').symm
  obtain ⟨e0, e1⟩ := fields2 h
  exact ⟨by rw [h0, g0, Dbg.id_inj.mp e0], Dbg.size_inj.mp e1⟩

theorem LookupRequest.debug_inj {a b : LookupRequest} {d : Dbg} (h : a.debug = .ok d) (h' : b.debug = .ok d) :
    a.parentId = b.parentId ∧ a.name = b.name := by
  simp only [LookupRequest.debug] at h h'
  have h := (pure_ok_elim h).trans (pure_ok_elim h').symm
  obtain ⟨e0, e1⟩ := fields2 h
  exact ⟨Dbg.id_inj.mp e0, Dbg.name_inj.mp e1⟩

theorem LseekRequest.debug_inj {a b : LseekRequest} {d : Dbg} (h : a.debug = .ok d) (h' : b.debug = .ok d) :
    a.nodeId = b.nodeId ∧ a.handle = b.handle ∧ a.offset = b.offset ∧ a.whence = b.whence := by
  simp only [LseekRequest.debug] at h h'
  have h := (pure_ok_elim h).trans (pure_ok_elim h').symm
  obtain ⟨e0, e1, e2, e3⟩ := fields4 h
  exact ⟨Dbg.id_inj.mp e0, Dbg.u64_inj.mp e1, Dbg.u64_inj.mp e2, Dbg.whence_inj.mp e3⟩

theorem MkdirRequest.debug_inj {a b : MkdirRequest} {d : Dbg} (h : a.debug = .ok d) (h' : b.debug = .ok d) :
    a.parentId = b.parentId ∧ a.name = b.name ∧ a.mode = b.mode ∧ a.umask = b.umask := by
  simp only [MkdirRequest.debug] at h h'
  have h := (pure_ok_elim h).trans (pure_ok_elim h').symm
  obtain ⟨e0, e1, e2, e3⟩ := fields4 h
  exact ⟨Dbg.id_inj.mp e0, Dbg.name_inj.mp e1, Dbg.mode_inj.mp e2, Dbg.octal_inj.mp e3⟩

theorem OpendirRequest.debug_inj {a b : OpendirRequest} {d : Dbg} (h : a.debug = .ok d) (h' : b.debug = .ok d) :
    a.nodeId = b.nodeId ∧ a.flags = b.flags ∧ a.openFlags = b.openFlags := by
  simp only [OpendirRequest.debug] at h h'
  obtain ⟨x0, h0, h⟩ := bind_ok_elim h
  obtain ⟨y0, g0, h'⟩ := bind_ok_elim h'
  have h := (pure_ok_elim h).trans (pure_ok_elim h').symm
  obtain ⟨e0, e1, e2⟩ := fields3 h
  exact ⟨by rw [h0, g0, Dbg.id_inj.mp e0], (Dbg.flags32_inj (t := .opendirRequest) rfl).mp e1, Dbg.hex32_inj.mp e2⟩

theorem PollRequest.debug_inj {a b : PollRequest} {d : Dbg} (h : a.debug = .ok d) (h' : b.debug = .ok d) :
    a.nodeId = b.nodeId ∧ a.pollHandle = b.pollHandle ∧ a.pollEvents = b.pollEvents ∧ a.flags = b.flags := by
  simp only [PollRequest.debug] at h h'
  obtain ⟨x0, h0, h⟩ := bind_ok_elim h
  obtain ⟨y0, g0, h'⟩ := bind_ok_elim h'
  have h := (pure_ok_elim h).trans (pure_ok_elim h').symm
  obtain ⟨e0, e1, e2, e3⟩ := fields4 h
  exact ⟨by rw [h0, g0, Dbg.id_inj.mp e0], Dbg.u64_inj.mp e1, Dbg.hex32_inj.mp e2,
    (Dbg.flags32_inj (t := .pollRequest) rfl).mp e3⟩

theorem ReadlinkRequest.debug_inj {a b : ReadlinkRequest} {d : Dbg} (h : a.debug = .ok d) (h' : b.debug = .ok d) :
    a.nodeId = b.nodeId := by
  simp only [ReadlinkRequest.debug] at h h'
  have h := (pure_ok_elim h).trans (pure_ok_elim h').symm
  have e0 := fields1 h
  exact Dbg.id_inj.mp e0

theorem RemovexattrRequest.debug_inj {a b : RemovexattrRequest} {d : Dbg} (h : a.debug = .ok d)
    (h' : b.debug = .ok d) :
    a.nodeId = b.nodeId ∧ a.name = b.name := by
  simp only [RemovexattrRequest.debug] at h h'
  obtain ⟨x0, h0, h⟩ := bind_ok_elim h
  obtain ⟨y0, g0, h'⟩ := bind_ok_elim h'
  have h := (pure_ok_elim h).trans (pure_ok_elim h').symm
  obtain ⟨e0, e1⟩ := fields2 h
  exact ⟨by rw [h0, g0, Dbg.id_inj.mp e0], Dbg.cstr_inj.mp e1⟩

theorem RenameRequest.debug_inj {a b : RenameRequest} {d : Dbg} (h : a.debug = .ok d) (h' : b.debug = .ok d) :
    a.oldDirectoryId = b.oldDirectoryId ∧ a.oldName = b.oldName ∧ a.newDirectoryId = b.newDirectoryId ∧
    a.newName = b.newName ∧ a.renameFlags = b.renameFlags := by
  simp only [RenameRequest.debug] at h h'
  have h := (pure_ok_elim h).trans (pure_ok_elim h').symm
  obtain ⟨e0, e1, e2, e3, e4⟩ := fields5 h
  exact ⟨Dbg.id_inj.mp e0, Dbg.name_inj.mp e1, Dbg.id_inj.mp e2, Dbg.name_inj.mp e3, Dbg.hex32_inj.mp e4⟩

theorem RmdirRequest.debug_inj {a b : RmdirRequest} {d : Dbg} (h : a.debug = .ok d) (h' : b.debug = .ok d) :
    a.parentId = b.parentId ∧ a.name = b.name := by
  simp only [RmdirRequest.debug] at h h'
  have h := (pure_ok_elim h).trans (pure_ok_elim h').symm
  obtain ⟨e0, e1⟩ := fields2 h
  exact ⟨Dbg.id_inj.mp e0, Dbg.name_inj.mp e1⟩

theorem SetattrRequest.debug_inj {a b : SetattrRequest} {d : Dbg} (h : a.debug = .ok d) (h' : b.debug = .ok d) :
    a.nodeId = b.nodeId ∧ a.handle = b.handle ∧ a.size = b.size ∧ a.lockOwner = b.lockOwner ∧ a.atime = b.atime ∧
    a.atimeNow = b.atimeNow ∧ a.mtime = b.mtime ∧ a.mtimeNow = b.mtimeNow ∧ a.ctime = b.ctime ∧ a.mode = b.mode ∧
    a.userId = b.userId ∧ a.groupId = b.groupId := by
  simp only [SetattrRequest.debug] at h h'
  obtain ⟨x0, h0, h⟩ := bind_ok_elim h
  obtain ⟨y0, g0, h'⟩ := bind_ok_elim h'
  obtain ⟨x4, h4, h⟩ := bind_ok_elim h
  obtain ⟨y4, g4, h'⟩ := bind_ok_elim h'
  obtain ⟨x6, h6, h⟩ := bind_ok_elim h
  obtain ⟨y6, g6, h'⟩ := bind_ok_elim h'
  obtain ⟨x8, h8, h⟩ := bind_ok_elim h
  obtain ⟨y8, g8, h'⟩ := bind_ok_elim h'
  have h := (pure_ok_elim h).trans (pure_ok_elim h').symm
  obtain ⟨e0, e1, e2, e3, e4, e5, e6, e7, e8, e9, e10, e11⟩ := fields12 h
  exact ⟨by rw [h0, g0, Dbg.id_inj.mp e0], (Dbg.option_inj Dbg.u64_inj).mp e1, (Dbg.option_inj Dbg.u64_inj).mp e2,
    (Dbg.option_inj Dbg.hex64_inj).mp e3, by rw [h4, g4, (Dbg.option_inj Dbg.time_inj).mp e4], Dbg.bool_inj.mp e5,
    by rw [h6, g6, (Dbg.option_inj Dbg.time_inj).mp e6], Dbg.bool_inj.mp e7,
    by rw [h8, g8, (Dbg.option_inj Dbg.time_inj).mp e8], (Dbg.option_inj Dbg.mode_inj).mp e9,
    (Dbg.option_inj Dbg.u32_inj).mp e10, (Dbg.option_inj Dbg.u32_inj).mp e11⟩

theorem SetlkRequest.debug_inj {p : Platform} {a b : SetlkRequest} {d : Dbg} (h : a.debug p = .ok d)
    (h' : b.debug p = .ok d) :
    a.nodeId = b.nodeId ∧ a.handle = b.handle ∧ a.mayBlock = b.mayBlock ∧ a.owner = b.owner ∧ a.lock = b.lock ∧
    a.flags = b.flags := by
  simp only [SetlkRequest.debug] at h h'
  obtain ⟨x0, h0, h⟩ := bind_ok_elim h
  obtain ⟨y0, g0, h'⟩ := bind_ok_elim h'
  have h := (pure_ok_elim h).trans (pure_ok_elim h').symm
  obtain ⟨e0, e1, e2, e3, e4, e5⟩ := fields6 h
  exact ⟨by rw [h0, g0, Dbg.id_inj.mp e0], Dbg.u64_inj.mp e1, Dbg.bool_inj.mp e2, Dbg.hex64_inj.mp e3,
    Dbg.lock_inj.mp e4, (Dbg.flags32_inj (t := .setlkRequest) rfl).mp e5⟩

theorem StatfsRequest.debug_inj {a b : StatfsRequest} {d : Dbg} (h : a.debug = .ok d) (h' : b.debug = .ok d) :
    a.nodeId = b.nodeId := by
  simp only [StatfsRequest.debug] at h h'
  have h := (pure_ok_elim h).trans (pure_ok_elim h').symm
  have e0 := fields1 h
  exact Dbg.id_inj.mp e0

theorem SymlinkRequest.debug_inj {a b : SymlinkRequest} {d : Dbg} (h : a.debug = .ok d) (h' : b.debug = .ok d) :
    a.parentId = b.parentId ∧ a.name = b.name ∧ a.content = b.content := by
  simp only [SymlinkRequest.debug] at h h'
  have h := (pure_ok_elim h).trans (pure_ok_elim h').symm
  obtain ⟨e0, e1, e2⟩ := fields3 h
  exact ⟨Dbg.id_inj.mp e0, Dbg.name_inj.mp e1, Dbg.cstr_inj.mp e2⟩

theorem UnlinkRequest.debug_inj {a b : UnlinkRequest} {d : Dbg} (h : a.debug = .ok d) (h' : b.debug = .ok d) :
    a.parentId = b.parentId ∧ a.name = b.name := by
  simp only [UnlinkRequest.debug] at h h'
  have h := (pure_ok_elim h).trans (pure_ok_elim h').symm
  obtain ⟨e0, e1⟩ := fields2 h
  exact ⟨Dbg.id_inj.mp e0, Dbg.name_inj.mp e1⟩

theorem FuseInitRequest.debug_inj {a b : FuseInitRequest} {d : Dbg} (h : a.debug = .ok d) (h' : b.debug = .ok d) :
    a.version = b.version ∧ a.maxReadahead = b.maxReadahead ∧ a.flags = b.flags := by
  simp only [FuseInitRequest.debug] at h h'
  have h := (pure_ok_elim h).trans (pure_ok_elim h').symm
  obtain ⟨e0, e1, e2⟩ := fields3 h
  exact ⟨Dbg.version_inj.mp e0, Dbg.u32_inj.mp e1, (Dbg.flags64_inj (t := .fuseInit) rfl).mp e2⟩

theorem CuseInitRequest.debug_inj {a b : CuseInitRequest} {d : Dbg} (h : a.debug = .ok d) (h' : b.debug = .ok d) :
    a.version = b.version ∧ a.flags = b.flags := by
  simp only [CuseInitRequest.debug] at h h'
  have h := (pure_ok_elim h).trans (pure_ok_elim h').symm
  obtain ⟨e0, e1⟩ := fields2 h
  exact ⟨Dbg.version_inj.mp e0, (Dbg.flags32_inj (t := .cuseInit) rfl).mp e1⟩

theorem CreateRequest.debug_inj {a b : CreateRequest} {d : Dbg} (h : a.debug = .ok d) (h' : b.debug = .ok d) :
    a.nodeId = b.nodeId ∧ a.name = b.name ∧ a.flags = b.flags ∧ a.openFlags = b.openFlags ∧ a.mode = b.mode ∧
    a.umask = b.umask := by
  simp only [CreateRequest.debug] at h h'
  obtain ⟨x0, h0, h⟩ := bind_ok_elim h
  obtain ⟨y0, g0, h'⟩ := bind_ok_elim h'
  obtain ⟨x2, h2, h⟩ := bind_ok_elim h
  obtain ⟨y2, g2, h'⟩ := bind_ok_elim h'
  obtain ⟨x3, h3, h⟩ := bind_ok_elim h
  obtain ⟨y3, g3, h'⟩ := bind_ok_elim h'
  obtain ⟨x4, h4, h⟩ := bind_ok_elim h
  obtain ⟨y4, g4, h'⟩ := bind_ok_elim h'
  obtain ⟨x5, h5, h⟩ := bind_ok_elim h
  obtain ⟨y5, g5, h'⟩ := bind_ok_elim h'
  have h := (pure_ok_elim h).trans (pure_ok_elim h').symm
  obtain ⟨e0, e1, e2, e3, e4, e5⟩ := fields6 h
  exact ⟨by rw [h0, g0, Dbg.id_inj.mp e0], Dbg.name_inj.mp e1,
    by rw [h2, g2, (Dbg.flags32_inj (t := .createRequest) rfl).mp e2], by rw [h3, g3, Dbg.hex32_inj.mp e3],
    by rw [h4, g4, Dbg.mode_inj.mp e4], by rw [h5, g5, Dbg.u32_inj.mp e5]⟩

theorem GetattrRequest.debug_inj {a b : GetattrRequest} {d : Dbg} (h : a.debug = .ok d) (h' : b.debug = .ok d) :
    a.nodeId = b.nodeId ∧ a.handle = b.handle := by
  simp only [GetattrRequest.debug] at h h'
  obtain ⟨x0, h0, h⟩ := bind_ok_elim h
  obtain ⟨y0, g0, h'⟩ := bind_ok_elim h'
  obtain ⟨x1, h1, h⟩ := bind_ok_elim h
  obtain ⟨y1, g1, h'⟩ := bind_ok_elim h'
  have h := (pure_ok_elim h).trans (pure_ok_elim h').symm
  obtain ⟨e0, e1⟩ := fields2 h
  exact ⟨by rw [h0, g0, Dbg.id_inj.mp e0], by rw [h1, g1, (Dbg.option_inj Dbg.u64_inj).mp e1]⟩

theorem MknodRequest.debug_inj {a b : MknodRequest} {d : Dbg} (h : a.debug = .ok d) (h' : b.debug = .ok d) :
    a.parentId = b.parentId ∧ a.name = b.name ∧ a.mode = b.mode ∧ a.umask = b.umask ∧
    a.deviceNumber = b.deviceNumber := by
  simp only [MknodRequest.debug] at h h'
  obtain ⟨x0, h0, h⟩ := bind_ok_elim h
  obtain ⟨y0, g0, h'⟩ := bind_ok_elim h'
  obtain ⟨x2, h2, h⟩ := bind_ok_elim h
  obtain ⟨y2, g2, h'⟩ := bind_ok_elim h'
  obtain ⟨x3, h3, h⟩ := bind_ok_elim h
  obtain ⟨y3, g3, h'⟩ := bind_ok_elim h'
  obtain ⟨x4, h4, h⟩ := bind_ok_elim h
  obtain ⟨y4, g4, h'⟩ := bind_ok_elim h'
  have h := (pure_ok_elim h).trans (pure_ok_elim h').symm
  obtain ⟨e0, e1, e2, e3, e4⟩ := fields5 h
  exact ⟨by rw [h0, g0, Dbg.id_inj.mp e0], Dbg.name_inj.mp e1, by rw [h2, g2, Dbg.mode_inj.mp e2],
    by rw [h3, g3, Dbg.octal_inj.mp e3], by rw [h4, g4, (Dbg.option_inj Dbg.u32_inj).mp e4]⟩

theorem ReaddirRequest.debug_inj {a b : ReaddirRequest} {d : Dbg} (h : a.debug = .ok d) (h' : b.debug = .ok d) :
    a.nodeId = b.nodeId ∧ a.size = b.size ∧ a.offset = b.offset ∧ a.handle = b.handle ∧ a.openFlags = b.openFlags := by
  simp only [ReaddirRequest.debug] at h h'
  obtain ⟨x0, h0, h⟩ := bind_ok_elim h
  obtain ⟨y0, g0, h'⟩ := bind_ok_elim h'
  obtain ⟨x1, h1, h⟩ := bind_ok_elim h
  obtain ⟨y1, g1, h'⟩ := bind_ok_elim h'
  obtain ⟨x2, h2, h⟩ := bind_ok_elim h
  obtain ⟨y2, g2, h'⟩ := bind_ok_elim h'
  obtain ⟨x3, h3, h⟩ := bind_ok_elim h
  obtain ⟨y3, g3, h'⟩ := bind_ok_elim h'
  obtain ⟨x4, h4, h⟩ := bind_ok_elim h
  obtain ⟨y4, g4, h'⟩ := bind_ok_elim h'
  have h := (pure_ok_elim h).trans (pure_ok_elim h').symm
  obtain ⟨e0, e1, e2, e3, e4⟩ := fields5 h
  exact ⟨by rw [h0, g0, Dbg.id_inj.mp e0], by rw [h1, g1, Dbg.u32_inj.mp e1],
    by rw [h2, g2, (Dbg.option_inj Dbg.id_inj).mp e2], by rw [h3, g3, Dbg.u64_inj.mp e3],
    by rw [h4, g4, Dbg.hex32_inj.mp e4]⟩

theorem ReaddirplusRequest.debug_inj {a b : ReaddirplusRequest} {d : Dbg} (h : a.debug = .ok d)
    (h' : b.debug = .ok d) :
    a.nodeId = b.nodeId ∧ a.size = b.size ∧ a.offset = b.offset ∧ a.handle = b.handle ∧ a.openFlags = b.openFlags := by
  simp only [ReaddirplusRequest.debug] at h h'
  obtain ⟨x0, h0, h⟩ := bind_ok_elim h
  obtain ⟨y0, g0, h'⟩ := bind_ok_elim h'
  obtain ⟨x1, h1, h⟩ := bind_ok_elim h
  obtain ⟨y1, g1, h'⟩ := bind_ok_elim h'
  obtain ⟨x2, h2, h⟩ := bind_ok_elim h
  obtain ⟨y2, g2, h'⟩ := bind_ok_elim h'
  obtain ⟨x3, h3, h⟩ := bind_ok_elim h
  obtain ⟨y3, g3, h'⟩ := bind_ok_elim h'
  obtain ⟨x4, h4, h⟩ := bind_ok_elim h
  obtain ⟨y4, g4, h'⟩ := bind_ok_elim h'
  have h := (pure_ok_elim h).trans (pure_ok_elim h').symm
  obtain ⟨e0, e1, e2, e3, e4⟩ := fields5 h
  exact ⟨by rw [h0, g0, Dbg.id_inj.mp e0], by rw [h1, g1, Dbg.u32_inj.mp e1],
    by rw [h2, g2, (Dbg.option_inj Dbg.id_inj).mp e2], by rw [h3, g3, Dbg.u64_inj.mp e3],
    by rw [h4, g4, Dbg.hex32_inj.mp e4]⟩

theorem ReleasedirRequest.debug_inj {a b : ReleasedirRequest} {d : Dbg} (h : a.debug = .ok d) (h' : b.debug = .ok d) :
    a.nodeId = b.nodeId ∧ a.handle = b.handle ∧ a.lockOwner = b.lockOwner ∧ a.openFlags = b.openFlags := by
  simp only [ReleasedirRequest.debug] at h h'
  obtain ⟨x0, h0, h⟩ := bind_ok_elim h
  obtain ⟨y0, g0, h'⟩ := bind_ok_elim h'
  obtain ⟨x1, h1, h⟩ := bind_ok_elim h
  obtain ⟨y1, g1, h'⟩ := bind_ok_elim h'
  obtain ⟨x2, h2, h⟩ := bind_ok_elim h
  obtain ⟨y2, g2, h'⟩ := bind_ok_elim h'
  obtain ⟨x3, h3, h⟩ := bind_ok_elim h
  obtain ⟨y3, g3, h'⟩ := bind_ok_elim h'
  have h := (pure_ok_elim h).trans (pure_ok_elim h').symm
  obtain ⟨e0, e1, e2, e3⟩ := fields4 h
  exact ⟨by rw [h0, g0, Dbg.id_inj.mp e0], by rw [h1, g1, Dbg.u64_inj.mp e1],
    by rw [h2, g2, (Dbg.option_inj Dbg.hex64_inj).mp e2], by rw [h3, g3, Dbg.hex32_inj.mp e3]⟩

theorem SetxattrRequest.debug_inj {a b : SetxattrRequest} {d : Dbg} (h : a.debug = .ok d) (h' : b.debug = .ok d) :
    a.nodeId = b.nodeId ∧ a.name = b.name ∧ a.flags = b.flags ∧ a.setxattrFlags = b.setxattrFlags ∧
    a.value = b.value := by
  simp only [SetxattrRequest.debug] at h h'
  obtain ⟨x0, h0, h⟩ := bind_ok_elim h
  obtain ⟨y0, g0, h'⟩ := bind_ok_elim h'
  obtain ⟨x2, h2, h⟩ := bind_ok_elim h
  obtain ⟨y2, g2, h'⟩ := bind_ok_elim h'
  obtain ⟨x3, h3, h⟩ := bind_ok_elim h
  obtain ⟨y3, g3, h'⟩ := bind_ok_elim h'
  have h := (pure_ok_elim h).trans (pure_ok_elim h').symm
  obtain ⟨e0, e1, e2, e3, e4⟩ := fields5 h
  exact ⟨by rw [h0, g0, Dbg.id_inj.mp e0], Dbg.cstr_inj.mp e1,
    by rw [h2, g2, (Dbg.flags32_inj (t := .setxattrRequest) rfl).mp e2], by rw [h3, g3, Dbg.hex32_inj.mp e3],
    Dbg.quoted_inj.mp e4⟩

theorem FlushRequest.debug_inj {a b : FlushRequest} {d : Dbg} (h : a.debug = .ok d) (h' : b.debug = .ok d) :
    a.nodeId = b.nodeId ∧ a.handle = b.handle ∧ a.lockOwner = b.lockOwner := by
  simp only [FlushRequest.debug] at h h'
  have h := (pure_ok_elim h).trans (pure_ok_elim h').symm
  obtain ⟨e0, e1, e2⟩ := fields3 h
  exact ⟨Dbg.id_inj.mp e0, Dbg.u64_inj.mp e1, Dbg.hex64_inj.mp e2⟩

theorem FsyncRequest.debug_inj {a b : FsyncRequest} {d : Dbg} (h : a.debug = .ok d) (h' : b.debug = .ok d) :
    a.nodeId = b.nodeId ∧ a.handle = b.handle ∧ a.flags = b.flags := by
  simp only [FsyncRequest.debug] at h h'
  have h := (pure_ok_elim h).trans (pure_ok_elim h').symm
  obtain ⟨e0, e1, e2⟩ := fields3 h
  exact ⟨Dbg.id_inj.mp e0, Dbg.u64_inj.mp e1, (Dbg.flags32_inj (t := .fsyncRequest) rfl).mp e2⟩

theorem IoctlRequest.debug_inj {a b : IoctlRequest} {d : Dbg} (h : a.debug = .ok d) (h' : b.debug = .ok d) :
    a.nodeId = b.nodeId ∧ a.handle = b.handle ∧ a.command = b.command ∧ a.arg = b.arg ∧ a.outputLen = b.outputLen ∧
    a.flags = b.flags ∧ a.input = b.input := by
  simp only [IoctlRequest.debug] at h h'
  have h := (pure_ok_elim h).trans (pure_ok_elim h').symm
  obtain ⟨e0, e1, e2, e3, e4, e5, e6⟩ := fields7 h
  exact ⟨Dbg.id_inj.mp e0, Dbg.u64_inj.mp e1, Dbg.hex32_inj.mp e2, Dbg.hex64_inj.mp e3, Dbg.u32_inj.mp e4,
    (Dbg.flags32_inj (t := .ioctlRequest) rfl).mp e5, Dbg.byteList_inj.mp e6⟩

theorem OpenRequest.debug_inj {a b : OpenRequest} {d : Dbg} (h : a.debug = .ok d) (h' : b.debug = .ok d) :
    a.nodeId = b.nodeId ∧ a.flags = b.flags ∧ a.openFlags = b.openFlags := by
  simp only [OpenRequest.debug] at h h'
  have h := (pure_ok_elim h).trans (pure_ok_elim h').symm
  obtain ⟨e0, e1, e2⟩ := fields3 h
  exact ⟨Dbg.id_inj.mp e0, (Dbg.flags32_inj (t := .openRequest) rfl).mp e1, Dbg.hex32_inj.mp e2⟩

theorem ReadRequest.debug_inj {a b : ReadRequest} {d : Dbg} (h : a.debug = .ok d) (h' : b.debug = .ok d) :
    a.nodeId = b.nodeId ∧ a.size = b.size ∧ a.offset = b.offset ∧ a.handle = b.handle ∧ a.lockOwner = b.lockOwner ∧
    a.openFlags = b.openFlags := by
  simp only [ReadRequest.debug] at h h'
  obtain ⟨x1, h1, h⟩ := bind_ok_elim h
  obtain ⟨y1, g1, h'⟩ := bind_ok_elim h'
  obtain ⟨x2, h2, h⟩ := bind_ok_elim h
  obtain ⟨y2, g2, h'⟩ := bind_ok_elim h'
  obtain ⟨x3, h3, h⟩ := bind_ok_elim h
  obtain ⟨y3, g3, h'⟩ := bind_ok_elim h'
  obtain ⟨x4, h4, h⟩ := bind_ok_elim h
  obtain ⟨y4, g4, h'⟩ := bind_ok_elim h'
  obtain ⟨x5, h5, h⟩ := bind_ok_elim h
  obtain ⟨y5, g5, h'⟩ := bind_ok_elim h'
  have h := (pure_ok_elim h).trans (pure_ok_elim h').symm
  obtain ⟨e0, e1, e2, e3, e4, e5⟩ := fields6 h
  exact ⟨Dbg.id_inj.mp e0, by rw [h1, g1, Dbg.u32_inj.mp e1], by rw [h2, g2, Dbg.u64_inj.mp e2],
    by rw [h3, g3, Dbg.u64_inj.mp e3], by rw [h4, g4, (Dbg.option_inj Dbg.hex64_inj).mp e4],
    by rw [h5, g5, Dbg.hex32_inj.mp e5]⟩

theorem ReleaseRequest.debug_inj {a b : ReleaseRequest} {d : Dbg} (h : a.debug = .ok d) (h' : b.debug = .ok d) :
    a.nodeId = b.nodeId ∧ a.handle = b.handle ∧ a.lockOwner = b.lockOwner ∧ a.openFlags = b.openFlags := by
  simp only [ReleaseRequest.debug] at h h'
  obtain ⟨x1, h1, h⟩ := bind_ok_elim h
  obtain ⟨y1, g1, h'⟩ := bind_ok_elim h'
  obtain ⟨x2, h2, h⟩ := bind_ok_elim h
  obtain ⟨y2, g2, h'⟩ := bind_ok_elim h'
  obtain ⟨x3, h3, h⟩ := bind_ok_elim h
  obtain ⟨y3, g3, h'⟩ := bind_ok_elim h'
  have h := (pure_ok_elim h).trans (pure_ok_elim h').symm
  obtain ⟨e0, e1, e2, e3⟩ := fields4 h
  exact ⟨Dbg.id_inj.mp e0, by rw [h1, g1, Dbg.u64_inj.mp e1], by rw [h2, g2, (Dbg.option_inj Dbg.hex64_inj).mp e2],
    by rw [h3, g3, Dbg.hex32_inj.mp e3]⟩

theorem WriteRequest.debug_inj {a b : WriteRequest} {d : Dbg} (h : a.debug = .ok d) (h' : b.debug = .ok d) :
    a.nodeId = b.nodeId ∧ a.offset = b.offset ∧ a.handle = b.handle ∧ a.value = b.value ∧ a.flags = b.flags ∧
    a.lockOwner = b.lockOwner ∧ a.openFlags = b.openFlags := by
  simp only [WriteRequest.debug] at h h'
  obtain ⟨x0, h0, h⟩ := bind_ok_elim h
  obtain ⟨y0, g0, h'⟩ := bind_ok_elim h'
  obtain ⟨x1, h1, h⟩ := bind_ok_elim h
  obtain ⟨y1, g1, h'⟩ := bind_ok_elim h'
  obtain ⟨x2, h2, h⟩ := bind_ok_elim h
  obtain ⟨y2, g2, h'⟩ := bind_ok_elim h'
  obtain ⟨x3, h3, h⟩ := bind_ok_elim h
  obtain ⟨y3, g3, h'⟩ := bind_ok_elim h'
  obtain ⟨x4, h4, h⟩ := bind_ok_elim h
  obtain ⟨y4, g4, h'⟩ := bind_ok_elim h'
  obtain ⟨x5, h5, h⟩ := bind_ok_elim h
  obtain ⟨y5, g5, h'⟩ := bind_ok_elim h'
  obtain ⟨x6, h6, h⟩ := bind_ok_elim h
  obtain ⟨y6, g6, h'⟩ := bind_ok_elim h'
  have h := (pure_ok_elim h).trans (pure_ok_elim h').symm
  obtain ⟨e0, e1, e2, e3, e4, e5, e6⟩ := fields7 h
  exact ⟨by rw [h0, g0, Dbg.id_inj.mp e0], by rw [h1, g1, Dbg.u64_inj.mp e1], by rw [h2, g2, Dbg.u64_inj.mp e2],
    by rw [h3, g3, Dbg.quoted_inj.mp e3], by rw [h4, g4, (Dbg.flags32_inj (t := .writeRequest) rfl).mp e4],
    by rw [h5, g5, (Dbg.option_inj Dbg.hex64_inj).mp e5], by rw [h6, g6, Dbg.hex32_inj.mp e6]⟩

theorem debug_same {p : Platform} {a b : AnyRequest} {d : Dbg} (h : a.debug p = .ok d) (h' : b.debug p = .ok d) :
    SameValues a b := by
  have hn : a.ctorIdx = b.ctorIdx := by
    obtain ⟨ds, h1⟩ := debug_record h
    obtain ⟨ds', h1'⟩ := debug_record h'
    exact ctorIdx_of_typeName (Dbg.record.inj (h1.symm.trans h1')).1
  cases a with
  | access a =>
    cases b with
    | access b => exact AccessRequest.debug_inj h h'
    | _ => exact absurd hn (Nat.ne_of_beq_eq_false rfl)
  | bmap a =>
    cases b with
    | bmap b => exact BmapRequest.debug_inj h h'
    | _ => exact absurd hn (Nat.ne_of_beq_eq_false rfl)
  | copyFileRange a =>
    cases b with
    | copyFileRange b => exact CopyFileRangeRequest.debug_inj h h'
    | _ => exact absurd hn (Nat.ne_of_beq_eq_false rfl)
  | fallocate a =>
    cases b with
    | fallocate b => exact FallocateRequest.debug_inj h h'
    | _ => exact absurd hn (Nat.ne_of_beq_eq_false rfl)
  | forget a =>
    cases b with
    | forget b => exact ForgetRequest.debug_inj h h'
    | _ => exact absurd hn (Nat.ne_of_beq_eq_false rfl)
  | fsyncdir a =>
    cases b with
    | fsyncdir b => exact FsyncdirRequest.debug_inj h h'
    | _ => exact absurd hn (Nat.ne_of_beq_eq_false rfl)
  | getlk a =>
    cases b with
    | getlk b => exact GetlkRequest.debug_inj h h'
    | _ => exact absurd hn (Nat.ne_of_beq_eq_false rfl)
  | getxattr a =>
    cases b with
    | getxattr b => exact GetxattrRequest.debug_inj h h'
    | _ => exact absurd hn (Nat.ne_of_beq_eq_false rfl)
  | interrupt a =>
    cases b with
    | interrupt b => exact InterruptRequest.debug_inj h h'
    | _ => exact absurd hn (Nat.ne_of_beq_eq_false rfl)
  | link a =>
    cases b with
    | link b => exact LinkRequest.debug_inj h h'
    | _ => exact absurd hn (Nat.ne_of_beq_eq_false rfl)
  | listxattr a =>
    cases b with
    | listxattr b => exact ListxattrRequest.debug_inj h h'
    | _ => exact absurd hn (Nat.ne_of_beq_eq_false rfl)
  | lookup a =>
    cases b with
    | lookup b => exact LookupRequest.debug_inj h h'
    | _ => exact absurd hn (Nat.ne_of_beq_eq_false rfl)
  | lseek a =>
    cases b with
    | lseek b => exact LseekRequest.debug_inj h h'
    | _ => exact absurd hn (Nat.ne_of_beq_eq_false rfl)
  | mkdir a =>
    cases b with
    | mkdir b => exact MkdirRequest.debug_inj h h'
    | _ => exact absurd hn (Nat.ne_of_beq_eq_false rfl)
  | opendir a =>
    cases b with
    | opendir b => exact OpendirRequest.debug_inj h h'
    | _ => exact absurd hn (Nat.ne_of_beq_eq_false rfl)
  | poll a =>
    cases b with
    | poll b => exact PollRequest.debug_inj h h'
    | _ => exact absurd hn (Nat.ne_of_beq_eq_false rfl)
  | readlink a =>
    cases b with
    | readlink b => exact ReadlinkRequest.debug_inj h h'
    | _ => exact absurd hn (Nat.ne_of_beq_eq_false rfl)
  | removexattr a =>
    cases b with
    | removexattr b => exact RemovexattrRequest.debug_inj h h'
    | _ => exact absurd hn (Nat.ne_of_beq_eq_false rfl)
  | rename a =>
    cases b with
    | rename b => exact RenameRequest.debug_inj h h'
    | _ => exact absurd hn (Nat.ne_of_beq_eq_false rfl)
  | rmdir a =>
    cases b with
    | rmdir b => exact RmdirRequest.debug_inj h h'
    | _ => exact absurd hn (Nat.ne_of_beq_eq_false rfl)
  | setattr a =>
    cases b with
    | setattr b => exact SetattrRequest.debug_inj h h'
    | _ => exact absurd hn (Nat.ne_of_beq_eq_false rfl)
  | setlk a =>
    cases b with
    | setlk b => exact SetlkRequest.debug_inj h h'
    | _ => exact absurd hn (Nat.ne_of_beq_eq_false rfl)
  | statfs a =>
    cases b with
    | statfs b => exact StatfsRequest.debug_inj h h'
    | _ => exact absurd hn (Nat.ne_of_beq_eq_false rfl)
  | symlink a =>
    cases b with
    | symlink b => exact SymlinkRequest.debug_inj h h'
    | _ => exact absurd hn (Nat.ne_of_beq_eq_false rfl)
  | unlink a =>
    cases b with
    | unlink b => exact UnlinkRequest.debug_inj h h'
    | _ => exact absurd hn (Nat.ne_of_beq_eq_false rfl)
  | fuseInit a =>
    cases b with
    | fuseInit b => exact FuseInitRequest.debug_inj h h'
    | _ => exact absurd hn (Nat.ne_of_beq_eq_false rfl)
  | cuseInit a =>
    cases b with
    | cuseInit b => exact CuseInitRequest.debug_inj h h'
    | _ => exact absurd hn (Nat.ne_of_beq_eq_false rfl)
  | create a =>
    cases b with
    | create b => exact CreateRequest.debug_inj h h'
    | _ => exact absurd hn (Nat.ne_of_beq_eq_false rfl)
  | getattr a =>
    cases b with
    | getattr b => exact GetattrRequest.debug_inj h h'
    | _ => exact absurd hn (Nat.ne_of_beq_eq_false rfl)
  | mknod a =>
    cases b with
    | mknod b => exact MknodRequest.debug_inj h h'
    | _ => exact absurd hn (Nat.ne_of_beq_eq_false rfl)
  | readdir a =>
    cases b with
    | readdir b => exact ReaddirRequest.debug_inj h h'
    | _ => exact absurd hn (Nat.ne_of_beq_eq_false rfl)
  | readdirplus a =>
    cases b with
    | readdirplus b => exact ReaddirplusRequest.debug_inj h h'
    | _ => exact absurd hn (Nat.ne_of_beq_eq_false rfl)
  | releasedir a =>
    cases b with
    | releasedir b => exact ReleasedirRequest.debug_inj h h'
    | _ => exact absurd hn (Nat.ne_of_beq_eq_false rfl)
  | setxattr a =>
    cases b with
    | setxattr b => exact SetxattrRequest.debug_inj h h'
    | _ => exact absurd hn (Nat.ne_of_beq_eq_false rfl)
  | flush a =>
    cases b with
    | flush b => exact FlushRequest.debug_inj h h'
    | _ => exact absurd hn (Nat.ne_of_beq_eq_false rfl)
  | fsync a =>
    cases b with
    | fsync b => exact FsyncRequest.debug_inj h h'
    | _ => exact absurd hn (Nat.ne_of_beq_eq_false rfl)
  | ioctl a =>
    cases b with
    | ioctl b => exact IoctlRequest.debug_inj h h'
    | _ => exact absurd hn (Nat.ne_of_beq_eq_false rfl)
  | open_ a =>
    cases b with
    | open_ b => exact OpenRequest.debug_inj h h'
    | _ => exact absurd hn (Nat.ne_of_beq_eq_false rfl)
  | read a =>
    cases b with
    | read b => exact ReadRequest.debug_inj h h'
    | _ => exact absurd hn (Nat.ne_of_beq_eq_false rfl)
  | release a =>
    cases b with
    | release b => exact ReleaseRequest.debug_inj h h'
    | _ => exact absurd hn (Nat.ne_of_beq_eq_false rfl)
  | write a =>
    cases b with
    | write b => exact WriteRequest.debug_inj h h'
    | _ => exact absurd hn (Nat.ne_of_beq_eq_false rfl)

/-! ## Decoded requests -/

/-- The text of a request can be written if the request's accessors return. -/
theorem debug_returns {p : Platform} {a : AnyRequest} (ha : a.AccessorsReturn) : ∃ d, a.debug p = .ok d := by
  cases a with
  | access a => exact ⟨_, rfl⟩
  | bmap a =>
    obtain ⟨_, h0⟩ := ha
    exact ⟨_, by simp only [AnyRequest.debug, BmapRequest.debug, h0]; rfl⟩
  | copyFileRange a =>
    obtain ⟨⟨_, h0⟩, ⟨_, h1⟩⟩ := ha
    exact ⟨_, by simp only [AnyRequest.debug, CopyFileRangeRequest.debug, h0, h1]; rfl⟩
  | fallocate a =>
    obtain ⟨_, h0⟩ := ha
    exact ⟨_, by simp only [AnyRequest.debug, FallocateRequest.debug, h0]; rfl⟩
  | forget a => exact ⟨_, rfl⟩
  | fsyncdir a =>
    obtain ⟨_, h0⟩ := ha
    exact ⟨_, by simp only [AnyRequest.debug, FsyncdirRequest.debug, h0]; rfl⟩
  | getlk a =>
    obtain ⟨_, h0⟩ := ha
    exact ⟨_, by simp only [AnyRequest.debug, GetlkRequest.debug, h0]; rfl⟩
  | getxattr a =>
    obtain ⟨_, h0⟩ := ha
    exact ⟨_, by simp only [AnyRequest.debug, GetxattrRequest.debug, h0]; rfl⟩
  | interrupt a =>
    obtain ⟨_, h0⟩ := ha
    exact ⟨_, by simp only [AnyRequest.debug, InterruptRequest.debug, h0]; rfl⟩
  | link a => exact ⟨_, rfl⟩
  | listxattr a =>
    obtain ⟨_, h0⟩ := ha
    exact ⟨_, by simp only [AnyRequest.debug, ListxattrRequest.debug, h0]; rfl⟩
  | lookup a => exact ⟨_, rfl⟩
  | lseek a => exact ⟨_, rfl⟩
  | mkdir a => exact ⟨_, rfl⟩
  | opendir a =>
    obtain ⟨_, h0⟩ := ha
    exact ⟨_, by simp only [AnyRequest.debug, OpendirRequest.debug, h0]; rfl⟩
  | poll a =>
    obtain ⟨_, h0⟩ := ha
    exact ⟨_, by simp only [AnyRequest.debug, PollRequest.debug, h0]; rfl⟩
  | readlink a => exact ⟨_, rfl⟩
  | removexattr a =>
    obtain ⟨_, h0⟩ := ha
    exact ⟨_, by simp only [AnyRequest.debug, RemovexattrRequest.debug, h0]; rfl⟩
  | rename a => exact ⟨_, rfl⟩
  | rmdir a => exact ⟨_, rfl⟩
  | setattr a =>
    obtain ⟨⟨_, h0⟩, ⟨_, h1⟩, ⟨_, h2⟩, ⟨_, h3⟩⟩ := ha
    exact ⟨_, by simp only [AnyRequest.debug, SetattrRequest.debug, h0, h1, h2, h3]; rfl⟩
  | setlk a =>
    obtain ⟨_, h0⟩ := ha
    exact ⟨_, by simp only [AnyRequest.debug, SetlkRequest.debug, h0]; rfl⟩
  | statfs a => exact ⟨_, rfl⟩
  | symlink a => exact ⟨_, rfl⟩
  | unlink a => exact ⟨_, rfl⟩
  | fuseInit a => exact ⟨_, rfl⟩
  | cuseInit a => exact ⟨_, rfl⟩
  | create a =>
    obtain ⟨⟨_, h0⟩, ⟨_, h1⟩, ⟨_, h2⟩, ⟨_, h3⟩, ⟨_, h4⟩⟩ := ha
    exact ⟨_, by simp only [AnyRequest.debug, CreateRequest.debug, h0, h1, h2, h3, h4]; rfl⟩
  | getattr a =>
    obtain ⟨⟨_, h0⟩, ⟨_, h1⟩⟩ := ha
    exact ⟨_, by simp only [AnyRequest.debug, GetattrRequest.debug, h0, h1]; rfl⟩
  | mknod a =>
    obtain ⟨⟨_, h0⟩, ⟨_, h1⟩, ⟨_, h2⟩, ⟨_, h3⟩⟩ := ha
    exact ⟨_, by simp only [AnyRequest.debug, MknodRequest.debug, h0, h1, h2, h3]; rfl⟩
  | readdir a =>
    obtain ⟨⟨_, h0⟩, ⟨_, h1⟩, ⟨_, h2⟩, ⟨_, h3⟩, ⟨_, h4⟩⟩ := ha
    exact ⟨_, by simp only [AnyRequest.debug, ReaddirRequest.debug, h0, h1, h2, h3, h4]; rfl⟩
  | readdirplus a =>
    obtain ⟨⟨_, h0⟩, ⟨_, h1⟩, ⟨_, h2⟩, ⟨_, h3⟩, ⟨_, h4⟩⟩ := ha
    exact ⟨_, by simp only [AnyRequest.debug, ReaddirplusRequest.debug, h0, h1, h2, h3, h4]; rfl⟩
  | releasedir a =>
    obtain ⟨⟨_, h0⟩, ⟨_, h1⟩, ⟨_, h2⟩, ⟨_, h3⟩⟩ := ha
    exact ⟨_, by simp only [AnyRequest.debug, ReleasedirRequest.debug, h0, h1, h2, h3]; rfl⟩
  | setxattr a =>
    obtain ⟨⟨_, h0⟩, ⟨_, h1⟩, ⟨_, h2⟩⟩ := ha
    exact ⟨_, by simp only [AnyRequest.debug, SetxattrRequest.debug, h0, h1, h2]; rfl⟩
  | flush a => exact ⟨_, rfl⟩
  | fsync a => exact ⟨_, rfl⟩
  | ioctl a => exact ⟨_, rfl⟩
  | open_ a => exact ⟨_, rfl⟩
  | read a =>
    obtain ⟨⟨_, h0⟩, ⟨_, h1⟩, ⟨_, h2⟩, ⟨_, h3⟩, ⟨_, h4⟩⟩ := ha
    exact ⟨_, by simp only [AnyRequest.debug, ReadRequest.debug, h0, h1, h2, h3, h4]; rfl⟩
  | release a =>
    obtain ⟨⟨_, h0⟩, ⟨_, h1⟩, ⟨_, h2⟩⟩ := ha
    exact ⟨_, by simp only [AnyRequest.debug, ReleaseRequest.debug, h0, h1, h2]; rfl⟩
  | write a =>
    obtain ⟨⟨_, h0⟩, ⟨_, h1⟩, ⟨_, h2⟩, ⟨_, h3⟩, ⟨_, h4⟩, ⟨_, h5⟩, ⟨_, h6⟩⟩ := ha
    exact ⟨_, by simp only [AnyRequest.debug, WriteRequest.debug, h0, h1, h2, h3, h4, h5, h6]; rfl⟩

/-- **C70**: the text of every request that decodes can be written, and consists of printable ASCII characters. -/
theorem C70_returns (t : ReqType) (buf : Bytes) (a : AnyRequest) (p : Platform) (h : decodeMessage t buf = .ok a) :
    ∃ d, a.debug p = .ok d ∧ ∀ c ∈ d.text, 0x20 ≤ c ∧ c ≤ 0x7E := by
  obtain ⟨d, hd⟩ := debug_returns (p := p) ((C04_exact t buf).2 a h)
  exact ⟨d, hd, text_printable d (debug_wf hd)⟩

/-- **C70**: the text of a request tells where it ends, which type of request it is, and what each of its public
accessors returns, whatever follows it. -/
theorem C70_injective {p : Platform} {a a' : AnyRequest} {d d' : Dbg} {rest rest' : Bytes} (h : a.debug p = .ok d)
    (h' : a'.debug p = .ok d') (he : d.text ++ rest = d'.text ++ rest') : SameValues a a' ∧ rest = rest' := by
  obtain ⟨ds, hr⟩ := debug_record h
  obtain ⟨ds', hr'⟩ := debug_record h'
  have hw := debug_wf h
  have hw' := debug_wf h'
  subst hr hr'
  obtain ⟨h1, h2, h3⟩ := record_unique hw.wide hw'.wide he
  rw [← h1, ← h2] at h'
  exact ⟨debug_same h h', h3⟩

namespace Spec

/-- The texts of some requests, one after another, as they get into a log. -/
inductive Logged (p : Platform) : List AnyRequest → Bytes → Prop
  | nil : Logged p [] []
  | cons {a d l log} : a.debug p = .ok d → Logged p l log → Logged p (a :: l) (d.text ++ log)

end Spec

/-- **C70**, logs: the requests whose texts a log consists of can be read off the log. -/
theorem C70_log {p : Platform} {l l' : List AnyRequest} {log : Bytes} (h : Logged p l log) (h' : Logged p l' log) :
    l.length = l'.length ∧ ∀ (i : Nat) a a', l[i]? = some a → l'[i]? = some a' → SameValues a a' := by
  have ne : ∀ {a : AnyRequest} {d : Dbg} {log : Bytes}, a.debug p = .ok d → d.text ++ log ≠ [] := by
    intro a d log hd hn
    obtain ⟨ds, hr⟩ := debug_record hd
    have hw := debug_wf hd
    subst hr
    rw [Dbg.text_eq, List.append_assoc, List.append_eq_nil_iff, List.append_eq_nil_iff] at hn
    exact absurd hn.2.1 (List.cons_ne_nil _ _)
  generalize hg : log = log' at h'
  induction h generalizing l' log' with
  | nil =>
    cases h' with
    | nil => exact ⟨rfl, fun i a a' h => by cases h⟩
    | cons hd _ => exact absurd hg.symm (ne hd)
  | cons hd _ ih =>
    cases h' with
    | nil => exact absurd hg (ne hd)
    | cons hd' ht' =>
      obtain ⟨h1, h2⟩ := C70_injective hd hd' hg
      obtain ⟨h3, h4⟩ := ih _ h2 ht'
      refine ⟨by rw [List.length_cons, List.length_cons, h3], fun i b b' hb hb' => ?_⟩
      cases i with
      | zero => cases hb; cases hb'; exact h1
      | succ i => exact h4 i b b' hb hb'

/-! ## Undecoded requests -/

theorem newUnchecked_val {n : UInt64} {x : NonZeroU64} (h : NonZeroU64.newUnchecked n = .ok x) : x.val = n := by
  by_cases hn : n = 0
  · rw [hn] at h; exact absurd h (by simp [NonZeroU64.newUnchecked])
  · rw [newUnchecked_ok hn] at h; rw [← Except.ok.inj h]

theorem header_debug_inj {x y : FuseInHeader} {d : Dbg} (h : x.debug = .ok d) (h' : y.debug = .ok d) :
    { x with padding := 0 } = { y with padding := 0 } := by
  simp only [FuseInHeader.debug] at h h'
  obtain ⟨x0, h0, h⟩ := bind_ok_elim h
  obtain ⟨y0, g0, h'⟩ := bind_ok_elim h'
  obtain ⟨x1, h1, h⟩ := bind_ok_elim h
  obtain ⟨y1, g1, h'⟩ := bind_ok_elim h'
  have h := (pure_ok_elim h).trans (pure_ok_elim h').symm
  obtain ⟨e0, e1, e2, e3, e4, e5, e6⟩ := fields7 h
  have e0 := Dbg.id_inj.mp e0
  have e1 := Dbg.nat_inj.mp e1
  have e2 := Dbg.opcode_inj.mp e2
  have e3 := (Dbg.option_inj Dbg.id_inj).mp e3
  have e4 := Dbg.u32_inj.mp e4
  have e5 := Dbg.u32_inj.mp e5
  have e6 := (Dbg.option_inj Dbg.pid_inj).mp e6
  have k0 : x.unique = y.unique := by
    have hx := newUnchecked_val h0
    have hy := newUnchecked_val g0
    rw [← hx, ← hy, e0]
  have k1 : x.len = y.len := by
    simp only [FuseInHeader.requestLen] at h1 g1
    split at h1
    · split at g1
      · exact UInt32.toNat_inj.mp ((Except.ok.inj h1).trans (e1.trans (Except.ok.inj g1).symm))
      · cases g1
    · cases h1
  have k3 : x.nodeid = y.nodeid := by
    simp only [FuseInHeader.nodeId, NodeId.new, NonZeroU64.new] at e3
    by_cases a : x.nodeid = 0 <;> by_cases b : y.nodeid = 0
    · rw [a, b]
    · rw [dif_neg (not_not_intro a), dif_pos b] at e3; cases e3
    · rw [dif_pos a, dif_neg (not_not_intro b)] at e3; cases e3
    · rw [dif_pos a, dif_pos b] at e3
      exact Subtype.mk.inj (Option.some.inj e3)
  have k6 : x.pid = y.pid := by
    simp only [FuseInHeader.processId, ProcessId.new] at e6
    by_cases a : x.pid = 0 <;> by_cases b : y.pid = 0
    · rw [a, b]
    · rw [dif_neg (not_not_intro a), dif_pos b] at e6; cases e6
    · rw [dif_pos a, dif_neg (not_not_intro b)] at e6; cases e6
    · rw [dif_pos a, dif_pos b] at e6
      exact Subtype.mk.inj (Option.some.inj e6)
  rw [k0, k1, e2, k3, e4, e5, k6]

theorem header_debug_record {x : FuseInHeader} {d : Dbg} (h : x.debug = .ok d) : d.WF := by
  simp only [FuseInHeader.debug] at h
  obtain ⟨_, _, h⟩ := bind_ok_elim h
  obtain ⟨_, _, h⟩ := bind_ok_elim h
  rw [← pure_ok_elim h]
  simp only [Dbg.WF, Dbg.AllWF, Dbg.wf_u32, Dbg.wf_nat, Dbg.wf_id, Dbg.wf_opcode, Dbg.wf_option Dbg.wf_id,
    Dbg.wf_option Dbg.wf_pid, and_true]
  decide +kernel

/-- **C70**, undecoded requests: the text of a request that the library accepts can be written if and only if the
request declares at least the length of a header. -/
theorem C70_message_returns (buf : Bytes) (r : Request) (cuse : Bool) (h : Request.new buf = .ok r) :
    (∃ d, r.debug cuse = .ok d) ↔ 40 ≤ u32At buf 0 := by
  constructor
  · rintro ⟨d, hd⟩
    simp only [Request.debug] at hd
    obtain ⟨x, _, hd⟩ := bind_ok_elim hd
    obtain ⟨_, _, hd⟩ := bind_ok_elim hd
    obtain ⟨b, hb, hd⟩ := bind_ok_elim hd
    simp only [Request.body, C02_exposes buf r h, size_fuse_in_header] at hb
    replace hb : (if 40 ≤ (buf.take (u32At buf 0)).length then _ else _) = Except.ok b := hb
    split at hb
    · rename_i hl
      rw [List.length_take] at hl
      omega
    · cases hb
  · intro hl
    obtain ⟨⟨_, hb, hi, hn⟩, _⟩ := C03_inspect_partial buf r h hl
    obtain ⟨x, hx, _⟩ := C03_header buf r h
    obtain ⟨b, hb⟩ := hb
    obtain ⟨i, hi⟩ := hi
    obtain ⟨n, hn⟩ := hn
    rw [hx] at hi hn
    replace hi : x.requestId = .ok i := hi
    replace hn : x.requestLen = .ok n := hn
    exact ⟨_, by simp only [Request.debug, hx, FuseInHeader.debug, bind, Except.bind, hi, hn, hb]; rfl⟩

/-- **C70**, undecoded requests: the text is printable and tells where it ends, whether the request is one for a
CUSE or for a FUSE server, and every byte of the message except the four that pad the header. -/
theorem C70_message {buf buf' : Bytes} {r r' : Request} {cuse cuse' : Bool} {d d' : Dbg} {rest rest' : Bytes}
    (hn : Request.new buf = .ok r) (hn' : Request.new buf' = .ok r') (h : r.debug cuse = .ok d)
    (h' : r'.debug cuse' = .ok d') (he : d.text ++ rest = d'.text ++ rest') :
    (∀ c ∈ d.text, 0x20 ≤ c ∧ c ≤ 0x7E) ∧ cuse = cuse' ∧ u32At buf 0 = u32At buf' 0 ∧ buf.take 36 = buf'.take 36 ∧
      (buf.take (u32At buf 0)).drop 40 = (buf'.take (u32At buf' 0)).drop 40 ∧ rest = rest' := by
  have open_ : ∀ {buf : Bytes} {r : Request} {cuse : Bool} {d : Dbg}, Request.new buf = .ok r →
      r.debug cuse = .ok d → ∃ hd, (dec (buf.take 40) : FuseInHeader).debug = .ok hd ∧ 40 ≤ buf.length ∧
        d = .record (if cuse then "CuseRequest" else "FuseRequest")
          [.field "header" hd, .field "body" (Dbg.byteList ((buf.take (u32At buf 0)).drop 40))] ∧ d.WF := by
    intro buf r cuse d hn h
    have hl := (C70_message_returns buf r cuse hn).mp ⟨d, h⟩
    have hb := (C03_inspect_partial buf r hn hl).2
    have ha := (C02_accepted_iff buf).mp ⟨r, hn⟩
    rw [Request.new_eq, if_neg (by omega), if_neg ha.2.1, if_neg (by omega)] at hn
    cases hn
    have hx : Request.rawHeader ⟨buf⟩ = .ok (dec (buf.take 40)) := by
      simp only [Request.rawHeader, size_fuse_in_header, if_pos ha.1]
    simp only [Request.debug, hx, hb] at h
    obtain ⟨_, h0, h⟩ := bind_ok_elim h
    cases h0
    obtain ⟨hd, h1, h⟩ := bind_ok_elim h
    obtain ⟨_, h2, h⟩ := bind_ok_elim h
    cases h2
    have h := pure_ok_elim h
    refine ⟨hd, h1, ha.1, h.symm, ?_⟩
    rw [← h]
    have hw := header_debug_record h1
    cases cuse <;> (simp only [Dbg.WF, Dbg.AllWF, Dbg.wf_byteList, hw, and_true]; decide +kernel)
  obtain ⟨hd, g, hlen, e, w⟩ := open_ hn h
  obtain ⟨hd', g', hlen', e', w'⟩ := open_ hn' h'
  refine ⟨text_printable d w, ?_⟩
  subst e e'
  obtain ⟨k1, k2, k3⟩ := record_unique w.wide w'.wide he
  simp only [List.cons.injEq, Dbg.field.injEq, true_and, and_true, Dbg.byteList_inj] at k2
  rw [← k2.1] at g'
  have hh := header_debug_inj g g'
  refine ⟨?_, ?_, ?_, k2.2, k3⟩
  · cases cuse <;> cases cuse' <;> first | rfl | exact absurd k1 (by decide)
  · rw [← (hdr_fields hlen).1, ← (hdr_fields hlen').1]
    exact congrArg (fun x => x.len.toNat) hh
  · have key : ∀ (b : Bytes), 40 ≤ b.length →
        b.take 36 = (enc { (dec (b.take 40) : FuseInHeader) with padding := 0 }).take 36 := by
      intro b hb
      have h1 : enc (dec (b.take 40) : FuseInHeader) = b.take 40 :=
        Wire.enc_dec _ (by rw [List.length_take]; show min 40 _ = 40; omega)
      have h2 : b.take 36 = (b.take 40).take 36 := by rw [List.take_take]; rfl
      rw [h2, ← h1, Wire.dec_enc, enc_fuse_in_header, enc_fuse_in_header]
      simp only [layout_fuse_in_header]
      rfl
    rw [key buf hlen, key buf' hlen', hh]

/-! ## Cases -/

example : ∃ a d, decodeMessage .lookup exampleLookup = .ok a ∧ a.debug .freebsd = .ok d ∧
    d.text = text "LookupRequest { parent_id: 1, name: \"abc\" }" := by
  refine ⟨_, _, rfl, rfl, by decide +kernel⟩

example : ∃ d, (AnyRequest.ioctl ⟨{ nodeid := 3 }, ⟨9, 0, 0xC0085401, 0x7FFF0010, 2, 8⟩, [1, 255]⟩).debug .freebsd = .ok d ∧
    d.text = text ("IoctlRequest { node_id: 3, handle: 9, command: 0xC0085401, arg: 0x000000007FFF0010, " ++
      "output_len: 8, flags: IoctlRequestFlags {}, input: [1, 255] }") :=
  ⟨_, rfl, by decide +kernel⟩

example : ∃ r d, Request.new exampleLookup = .ok r ∧ r.debug false = .ok d ∧
    d.text = text ("FuseRequest { header: RequestHeader { request_id: 7, request_len: 44, opcode: FUSE_LOOKUP, " ++
      "node_id: Some(1), user_id: 1000, group_id: 100, process_id: Some(42) }, body: [97, 98, 99, 0] }") :=
  ⟨⟨exampleLookup⟩, _, rfl, rfl, by decide +kernel⟩

end Fuse
