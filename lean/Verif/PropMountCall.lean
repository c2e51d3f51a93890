import Verif.MountCall
import Verif.PropMount
import Verif.PropRecords

/-!
# Mounting: properties C53 and C54
-/

namespace Fuse

open Spec

/-- What a system call did. -/
inductive SysEvent
  | opened (path : CName) (flags : UInt64) (fd : Int32)
  | closed (fd : Int32)
  | stat (path : CName) (mode : UInt16)
  | uid (n : UInt32)
  | gid (n : UInt32)
  | mounted (source target fstype : CName) (flags : UInt32) (data : Bytes)
  | nmounted (iov : List Bytes) (flags : Int32)

/-- Asking for something without changing anything. -/
def SysEvent.isQuery : SysEvent → Prop
  | .stat _ _ => True
  | .uid _ => True
  | .gid _ => True
  | _ => False

/-- What happened, and the errors of the calls that failed. -/
structure Log where
  events : List SysEvent
  errors : List Errno

/-- A log with an entry for each success and for each failure. -/
def logged {α δ : Type} (r : Except Errno α × δ) (log : Log) (e : α → SysEvent) :
    Except Errno α × (δ × Log) :=
  match r with
  | (.ok a, d) => (.ok a, (d, ⟨log.events ++ [e a], log.errors⟩))
  | (.error no, d) => (.error no, (d, ⟨log.events, log.errors ++ [no]⟩))

/-- A log with one more event. -/
def Log.add (log : Log) (e : SysEvent) : Log := ⟨log.events ++ [e], log.errors⟩

theorem logged_fst {α δ : Type} (r : Except Errno α × δ) (log : Log) (e : α → SysEvent) :
    (logged r log e).1 = r.1 := by
  rcases r with ⟨r, d⟩
  cases r <;> rfl

/-- The same system, which also keeps a log; errors of `close` are not of interest. -/
def record {δ : Type} (sys : Sys δ) : Sys (δ × Log) where
  read := fun fd len s => ((sys.read fd len s.1).1, ((sys.read fd len s.1).2, s.2))
  read_fits := fun fd len s => sys.read_fits fd len s.1
  read_count := fun fd len s => sys.read_count fd len s.1
  writev := fun fd iov s => ((sys.writev fd iov s.1).1, ((sys.writev fd iov s.1).2, s.2))
  openat2 := fun path flags mode s => logged (sys.openat2 path flags mode s.1) s.2 (.opened path flags)
  openat2_fd := fun path flags mode s fd h => sys.openat2_fd path flags mode s.1 fd (by rwa [logged_fst] at h)
  openat := fun path flags mode s => logged (sys.openat path flags mode s.1) s.2 (.opened path flags.toUInt64)
  openat_fd := fun path flags mode s fd h => sys.openat_fd path flags mode s.1 fd (by rwa [logged_fst] at h)
  close := fun fd s => ((sys.close fd s.1).1, ((sys.close fd s.1).2, s.2.add (.closed fd)))
  statx := fun path s => logged (sys.statx path s.1) s.2 (.stat path)
  getuid := fun s => ((sys.getuid s.1).1, ((sys.getuid s.1).2, s.2.add (.uid (sys.getuid s.1).1)))
  getgid := fun s => ((sys.getgid s.1).1, ((sys.getgid s.1).2, s.2.add (.gid (sys.getgid s.1).1)))
  mount := fun source target fstype flags data s =>
    logged (sys.mount source target fstype flags data s.1) s.2 fun _ => .mounted source target fstype flags data
  nmount := fun iov flags s => logged (sys.nmount iov flags s.1) s.2 fun _ => .nmounted iov flags

/-- A mount that succeeded with the descriptor `fd`: after some queries, the device was opened for reading and
writing and not to be inherited, and the filesystem was mounted with a text in which the kernel finds the configured
options, this descriptor, and the configured or else the queried root mode and owner.  Only a block size makes the
kernel refuse the text for a type other than `fuseblk`. -/
def Mounted (target : CName) (c : MountConfig) (log : List SysEvent) (fd : Int32) : Prop :=
  ∃ (queries : List SysEvent) (text : Bytes) (root uid gid : UInt32),
    (∀ e ∈ queries, e.isQuery) ∧
    log = queries ++ [.opened (c.devFuse.getD DEV_FUSE) 0x80002 fd,
      .mounted c.opts.mountSource.cstr target c.opts.mountType.cstr c.flags (text ++ [0])] ∧
    0 ∉ text ∧ text.length < 4096 ∧
    Kernel.parse (c.opts.mountType.cstr.bytes == cstrFuseblk.bytes) text =
      (if c.opts.blockSize ≠ none ∧ (c.opts.mountType.cstr.bytes == cstrFuseblk.bytes) = false then none else some
      { fd := some fd.toUInt32
        allowOther := c.opts.allowOther
        blksize := c.opts.blockSize
        defaultPermissions := c.opts.defaultPermissions
        groupId := some gid
        maxRead := c.opts.maxRead
        rootmode := some root
        subtype := c.opts.subtype.map fun t => t.cstr.bytes
        userId := some uid }) ∧
    (c.opts.rootMode = some ⟨root⟩ ∨
      c.opts.rootMode = none ∧ ∃ mode, .stat target mode ∈ queries ∧ root = mode.toUInt32) ∧
    (c.opts.userId = some uid ∨ c.opts.userId = none ∧ .uid uid ∈ queries) ∧
    (c.opts.groupId = some gid ∨ c.opts.groupId = none ∧ .gid gid ∈ queries)

/-- A mount that failed: nothing was mounted, and a device that was opened was closed.  The error is that of the call
that failed last, or `EINVAL` for mount data that is too long. -/
def NotMounted (c : MountConfig) (log : Log) (error : Errno) : Prop :=
  ∃ queries : List SysEvent, (∀ e ∈ queries, e.isQuery) ∧
    (log.events = queries ∧ log.errors.getLast? = some error ∨
      ∃ fd, log.events = queries ++ [.opened (c.devFuse.getD DEV_FUSE) 0x80002 fd, .closed fd] ∧
        (log.errors.getLast? = some error ∨ error = EINVAL ∧ ∃ root uid gid,
          mountData { c.opts with
            rootMode := some root, userId := some uid, groupId := some gid, fuseDeviceFd := some fd.toUInt32 }
            (List.replicate 4096 0) = .ok none))

variable {δ : Type}

/-! ## fuse-linux -/

theorem linux_fillRootMode (sys : Sys δ) (target : CName) (o : MountOptions) (d : δ) :
    (∃ no d', Linux.fillRootMode (record sys) target o (d, ⟨[], []⟩) = (.error no, (d', ⟨[], [no]⟩))) ∨
    ∃ d' log' root, Linux.fillRootMode (record sys) target o (d, ⟨[], []⟩) =
        (.ok { o with rootMode := some ⟨root⟩ }, (d', ⟨log', []⟩)) ∧
      (∀ e ∈ log', e.isQuery) ∧
      (o.rootMode = some ⟨root⟩ ∨ o.rootMode = none ∧ ∃ mode, .stat target mode ∈ log' ∧ root = mode.toUInt32) := by
  unfold Linux.fillRootMode
  cases hr : o.rootMode with
  | some m => exact Or.inr ⟨d, [], m.bits, by cases o; cases hr; rfl, by simp, Or.inl rfl⟩
  | none =>
    simp only [Linux.getRootMode, record]
    rcases sys.statx target d with ⟨r, d'⟩
    cases r with
    | ok mode =>
      refine Or.inr ⟨d', [.stat target mode], mode.toUInt32, rfl, ?_,
        Or.inr ⟨trivial, mode, by simp, rfl⟩⟩
      intro e he
      rw [List.mem_singleton.1 he]; exact trivial
    | error no => exact Or.inl ⟨no, d', rfl⟩

theorem linux_fillUserId (sys : Sys δ) (o : MountOptions) (d : δ) (log : List SysEvent) (hlog : ∀ e ∈ log, e.isQuery) :
    ∃ d' log' uid, Linux.fillUserId (record sys) o (d, ⟨log, []⟩) =
        ({ o with userId := some uid }, (d', ⟨log ++ log', []⟩)) ∧
      (∀ e ∈ log ++ log', e.isQuery) ∧ (o.userId = some uid ∨ o.userId = none ∧ .uid uid ∈ log ++ log') := by
  unfold Linux.fillUserId
  cases hr : o.userId with
  | some m => exact ⟨d, [], m, by cases o; cases hr; simp, by simpa using hlog, Or.inl rfl⟩
  | none =>
    refine ⟨(sys.getuid d).2, [.uid (sys.getuid d).1], (sys.getuid d).1, rfl, ?_, Or.inr ⟨rfl, by simp⟩⟩
    intro e he
    rcases List.mem_append.1 he with he | he
    · exact hlog e he
    · rw [List.mem_singleton.1 he]; exact trivial

theorem linux_fillGroupId (sys : Sys δ) (o : MountOptions) (d : δ) (log : List SysEvent) (hlog : ∀ e ∈ log, e.isQuery) :
    ∃ d' log' gid, Linux.fillGroupId (record sys) o (d, ⟨log, []⟩) =
        ({ o with groupId := some gid }, (d', ⟨log ++ log', []⟩)) ∧
      (∀ e ∈ log ++ log', e.isQuery) ∧ (o.groupId = some gid ∨ o.groupId = none ∧ .gid gid ∈ log ++ log') := by
  unfold Linux.fillGroupId
  cases hr : o.groupId with
  | some m => exact ⟨d, [], m, by cases o; cases hr; simp, by simpa using hlog, Or.inl rfl⟩
  | none =>
    refine ⟨(sys.getgid d).2, [.gid (sys.getgid d).1], (sys.getgid d).1, rfl, ?_, Or.inr ⟨rfl, by simp⟩⟩
    intro e he
    rcases List.mem_append.1 he with he | he
    · exact hlog e he
    · rw [List.mem_singleton.1 he]; exact trivial

theorem linux_fuseOpen (sys : Sys δ) (path : CName) (d : δ) (log : List SysEvent) :
    (∃ no d' errors, Linux.fuseOpen (record sys) path (d, ⟨log, []⟩) = (.error no, (d', ⟨log, errors⟩)) ∧
      errors.getLast? = some no) ∨
    ∃ fd d' errors, Linux.fuseOpen (record sys) path (d, ⟨log, []⟩) =
      (.ok ⟨fd, true⟩, (d', ⟨log ++ [.opened path 0x80002 fd], errors⟩)) := by
  unfold Linux.fuseOpen Linux.sysOpen
  simp only [record]
  rcases sys.openat2 path Linux.openFlags.toUInt64 (0 : UInt32).toUInt64 d with ⟨r, d'⟩
  cases r with
  | ok fd => exact Or.inr ⟨fd, d', [], rfl⟩
  | error no =>
    simp only [logged]
    by_cases hn : no = ENOSYS
    · simp only [hn, ↓reduceIte]
      rcases sys.openat path Linux.openFlags 0 d' with ⟨r, d''⟩
      cases r with
      | ok fd => exact Or.inr ⟨fd, d'', _, rfl⟩
      | error no => exact Or.inl ⟨no, d'', _, rfl, by simp⟩
    · simp only [hn, ↓reduceIte]
      exact Or.inl ⟨no, d', _, rfl, by simp⟩

theorem linux_mountWith (sys : Sys δ) (target : CName) (flags : UInt32) (o : MountOptions) (s : DeviceSocket) (d : δ)
    (log : List SysEvent) (errors : List Errno) (isBdev : Bool)
    (hsub : ∀ t, o.subtype = some t → FuseSubtype.new t.cstr = some t) :
    (∃ no d' errors', Linux.mountWith (record sys) target flags o s (d, ⟨log, errors⟩) =
      .ok (.error no, (d', ⟨log ++ [.closed s.fd], errors'⟩)) ∧ (errors'.getLast? = some no ∨
        no = EINVAL ∧
          mountData { o with fuseDeviceFd := some s.fd.toUInt32 } (List.replicate 4096 0) = .ok none)) ∨
    ∃ d' text, Linux.mountWith (record sys) target flags o s (d, ⟨log, errors⟩) = .ok (.ok s,
        (d', ⟨log ++ [.mounted o.mountSource.cstr target o.mountType.cstr flags (text ++ [0])], errors⟩)) ∧
      0 ∉ text ∧ text.length < 4096 ∧
      Kernel.parse isBdev text = if o.blockSize ≠ none ∧ isBdev = false then none else some
      { fd := some s.fd.toUInt32
        allowOther := o.allowOther
        blksize := o.blockSize
        defaultPermissions := o.defaultPermissions
        groupId := o.groupId
        maxRead := o.maxRead
        rootmode := o.rootMode.map FileMode.bits
        subtype := o.subtype.map fun t => t.cstr.bytes
        userId := o.userId } := by
  obtain ⟨text, hfit, hbig, hz, hp⟩ := C38 { o with fuseDeviceFd := some (Linux.fuseDeviceFd s) } isBdev hsub
  unfold Linux.mountWith
  dsimp only
  have hlen : (List.replicate PAGE_SIZE (0 : UInt8)).length = 4096 := List.length_replicate
  by_cases hl : text.length < 4096
  · rw [hfit _ (by rw [hlen]; exact hl)]
    simp only [bind, Except.bind, record]
    rcases sys.mount o.mountSource.cstr target o.mountType.cstr flags (text ++ [0]) d with ⟨r, d'⟩
    cases r with
    | ok u => exact Or.inr ⟨d', text, rfl, hz, hl, hp⟩
    | error no => exact Or.inl ⟨no, _, errors ++ [no], rfl, Or.inl (by simp)⟩
  · have hn := hbig (List.replicate PAGE_SIZE 0) (by rw [hlen]; omega)
    rw [hn]
    exact Or.inl ⟨_, _, _, rfl, Or.inr ⟨rfl, hn⟩⟩

/-- Mounting with fuse-linux never faults; it succeeds with a socket for the mounted device, whose end is signalled
by `ENODEV`, or it fails and leaves nothing behind. -/
theorem C53_linux (sys : Sys δ) (target : CName) (c : MountConfig) (d : δ)
    (hsub : ∀ t, c.opts.subtype = some t → FuseSubtype.new t.cstr = some t) :
    (∃ s d' log, Linux.mount (record sys) target c (d, ⟨[], []⟩) = .ok (.ok s, (d', log)) ∧
      Mounted target c log.events s.fd ∧ s.enodevIsEof = true) ∨
    ∃ e d' log, Linux.mount (record sys) target c (d, ⟨[], []⟩) = .ok (.error e, (d', log)) ∧
      NotMounted c log e := by
  unfold Linux.mount
  rcases linux_fillRootMode sys target c.opts d with ⟨no, d1, h1⟩ | ⟨d1, log1, root, h1, hq1, hroot⟩
  · rw [h1]
    exact Or.inr ⟨no, d1, _, rfl, [], by simp, Or.inl ⟨rfl, rfl⟩⟩
  rw [h1]
  obtain ⟨d2, log2, uid, h2, hq2, huid⟩ :=
    linux_fillUserId sys { c.opts with rootMode := some ⟨root⟩ } d1 log1 hq1
  obtain ⟨d3, log3, gid, h3, hq3, hgid⟩ :=
    linux_fillGroupId sys { c.opts with rootMode := some ⟨root⟩, userId := some uid } d2 (log1 ++ log2) hq2
  simp only [h2, h3]
  rcases linux_fuseOpen sys c.dev d3 (log1 ++ log2 ++ log3) with ⟨no, d4, errors, h4, herr⟩ | ⟨fd, d4, errors, h4⟩
  · rw [h4]
    exact Or.inr ⟨no, d4, _, rfl, _, hq3, Or.inl ⟨rfl, herr⟩⟩
  rw [h4]
  simp only
  rcases linux_mountWith sys target c.flags
      { c.opts with rootMode := some ⟨root⟩, userId := some uid, groupId := some gid } ⟨fd, true⟩ d4
      (log1 ++ log2 ++ log3 ++ [.opened c.dev 0x80002 fd]) errors
      (c.opts.mountType.cstr.bytes == cstrFuseblk.bytes) hsub with
    ⟨no, d5, errors', h5, herr⟩ | ⟨d5, text, h5, hz, hl, hp⟩
  · rw [h5]
    refine Or.inr ⟨no, d5, _, rfl, _, hq3, Or.inr ⟨fd, by simp [MountConfig.dev], ?_⟩⟩
    rcases herr with h | ⟨h, hn⟩
    · exact Or.inl h
    · exact Or.inr ⟨h, _, _, _, hn⟩
  · rw [h5]
    refine Or.inl ⟨⟨fd, true⟩, d5, _, rfl, ⟨log1 ++ log2 ++ log3, text, root, uid, gid, hq3, ?_, hz, hl, hp, ?_, ?_,
      hgid⟩, rfl⟩
    · simp [MountConfig.dev]
    · rcases hroot with h | ⟨h, mode, hm, hr⟩
      · exact Or.inl h
      · exact Or.inr ⟨h, mode, by simp [hm], hr⟩
    · rcases huid with h | ⟨h, hm⟩
      · exact Or.inl h
      · exact Or.inr ⟨h, List.mem_append_left _ hm⟩

/-! ## fuse-libc on Linux -/

/-- A function of fuse-libc does what that of fuse-linux does; errors are their numbers. -/
def Agrees {α : Type} (libc : Except Libc.LibcError α × Libc.Thread δ) (linux : Except Errno α × δ) : Prop :=
  (∀ a d, linux = (.ok a, d) → ∃ errno, libc = (.ok a, ⟨d, errno⟩)) ∧
  (∀ no d, linux = (.error no, d) → ∃ errno, libc = (.error ⟨Int32.ofNat no.toNat⟩, ⟨d, errno⟩))

theorem libc_getRootMode (sys : Sys δ) (target : CName) (t : Libc.Thread δ) :
    Agrees (Libc.getRootMode sys target t) (Linux.getRootMode sys target t.sys) := by
  cases h : sys.statx target t.sys with
  | mk r d' =>
    cases r with
    | ok mode =>
      have h1 : Libc.getRootMode sys target t = (.ok ⟨mode.toUInt32⟩, ⟨d', t.errno⟩) := by
        simp only [Libc.getRootMode, Libc.cStatx, h]; rfl
      have h2 : Linux.getRootMode sys target t.sys = (.ok ⟨mode.toUInt32⟩, d') := by
        simp only [Linux.getRootMode, h]
      rw [h1, h2]
      exact ⟨fun a d e => by cases e; exact ⟨_, rfl⟩, fun no d e => by cases e⟩
    | error no =>
      have h1 : Libc.getRootMode sys target t = (.error ⟨Libc.cInt no⟩, ⟨d', Libc.cInt no⟩) := by
        simp only [Libc.getRootMode, Libc.cStatx, h]; rfl
      have h2 : Linux.getRootMode sys target t.sys = (.error no, d') := by
        simp only [Linux.getRootMode, h]
      rw [h1, h2]
      exact ⟨fun a d e => (by cases e), fun no d e => by cases e; exact ⟨_, rfl⟩⟩

theorem libc_fillRootMode (sys : Sys δ) (target : CName) (o : MountOptions) (t : Libc.Thread δ) :
    Agrees (Libc.fillRootMode sys target o t) (Linux.fillRootMode sys target o t.sys) := by
  unfold Libc.fillRootMode Linux.fillRootMode
  cases o.rootMode with
  | some m => exact ⟨fun a d e => by cases e; exact ⟨_, rfl⟩, fun no d e => by cases e⟩
  | none =>
    obtain ⟨h1, h2⟩ := libc_getRootMode sys target t
    cases h : Linux.getRootMode sys target t.sys with
    | mk r d' =>
      cases r with
      | ok mode =>
        obtain ⟨errno, h3⟩ := h1 _ _ h
        simp only [h3]
        exact ⟨fun a d e => by cases e; exact ⟨_, rfl⟩, fun no d e => by cases e⟩
      | error no =>
        obtain ⟨errno, h3⟩ := h2 _ _ h
        simp only [h3]
        exact ⟨fun a d e => (by cases e), fun no d e => by cases e; exact ⟨_, rfl⟩⟩

theorem libc_fillUserId (sys : Sys δ) (o : MountOptions) (t : Libc.Thread δ) :
    Libc.fillUserId sys o t =
      ((Linux.fillUserId sys o t.sys).1, ⟨(Linux.fillUserId sys o t.sys).2, t.errno⟩) := by
  unfold Libc.fillUserId Linux.fillUserId
  cases o.userId <;> rfl

theorem libc_fillGroupId (sys : Sys δ) (o : MountOptions) (t : Libc.Thread δ) :
    Libc.fillGroupId sys o t =
      ((Linux.fillGroupId sys o t.sys).1, ⟨(Linux.fillGroupId sys o t.sys).2, t.errno⟩) := by
  unfold Libc.fillGroupId Linux.fillGroupId
  cases o.groupId <;> rfl

theorem libc_fuseOpen (sys : Sys δ) (path : CName) (d : δ) (errno : Int32) (log : List SysEvent) :
    (∃ no d' errno', Libc.fuseOpen (record sys) path ⟨(d, ⟨log, []⟩), errno⟩ =
      (.error ⟨Int32.ofNat no.toNat⟩, ⟨(d', ⟨log, [no]⟩), errno'⟩)) ∨
    ∃ fd d' errno', Libc.fuseOpen (record sys) path ⟨(d, ⟨log, []⟩), errno⟩ =
      (.ok ⟨fd, true⟩, ⟨(d', ⟨log ++ [.opened path 0x80002 fd], []⟩), errno'⟩) := by
  have hfd := sys.openat_fd path Libc.openFlags 0 d
  cases h : sys.openat path Libc.openFlags 0 d with
  | mk r d' =>
    have hr : (record sys).openat path Libc.openFlags 0 (d, ⟨log, []⟩) =
      logged (r, d') ⟨log, []⟩ (.opened path Libc.openFlags.toUInt64) := by rw [← h]; rfl
    unfold Libc.fuseOpen Libc.cOpen
    simp only [hr]
    cases r with
    | ok fd =>
      right
      have : fd ≠ -1 := by
        rintro rfl
        exact absurd (hfd (-1) (by rw [h])) (by decide)
      refine ⟨fd, d', errno, ?_⟩
      simp only [logged, this, ↓reduceIte]
      rfl
    | error no =>
      left
      exact ⟨_, d', _, rfl⟩

theorem libc_drop (sys : Sys δ) (s : DeviceSocket) (t : Libc.Thread δ) :
    ∃ errno, Libc.drop sys s t = ⟨Linux.drop sys s t.sys, errno⟩ := by
  unfold Libc.drop Linux.drop
  rcases sys.close s.fd t.sys with ⟨r, d⟩
  cases r <;> exact ⟨_, rfl⟩

theorem libc_mountWith (sys : Sys δ) (target : CName) (flags : UInt32) (o : MountOptions) (s : DeviceSocket)
    (d : δ) (errno : Int32) (out : Except Errno DeviceSocket × δ)
    (hout : Linux.mountWith sys target flags o s d = .ok out) :
    ∃ out', Libc.mountWith sys target flags o s ⟨d, errno⟩ = .ok out' ∧ Agrees out' out := by
  unfold Linux.mountWith at hout
  unfold Libc.mountWith
  have hfd : Linux.fuseDeviceFd s = Libc.fuseDeviceFd s := rfl
  dsimp only at hout ⊢
  rw [hfd] at hout
  cases hm : mountData { o with fuseDeviceFd := some (Libc.fuseDeviceFd s) } (List.replicate PAGE_SIZE 0) with
  | error f => rw [hm] at hout; cases hout
  | ok r =>
    rw [hm] at hout
    cases r with
    | none =>
      cases hout
      obtain ⟨errno', hd⟩ := libc_drop sys s ⟨d, errno⟩
      refine ⟨_, rfl, fun a d e => (by cases e), fun no d e => ?_⟩
      cases e
      exact ⟨errno', by rw [hd]; rfl⟩
    | some data =>
      cases hr : sys.mount o.mountSource.cstr target o.mountType.cstr flags data d with
      | mk r d' =>
        simp only [bind, Except.bind, hr] at hout ⊢
        cases r with
        | ok u =>
          cases hout
          exact ⟨_, rfl, fun a d e => by cases e; exact ⟨_, rfl⟩, fun no d e => by cases e⟩
        | error no =>
          cases hout
          obtain ⟨errno', hd⟩ := libc_drop sys s ⟨d', Libc.cInt no⟩
          refine ⟨_, rfl, fun a d e => (by cases e), fun no d e => ?_⟩
          cases e
          exact ⟨errno', by simp only [Libc.ret0, hd]; rfl⟩

/-- The system without the call `openat2` (Linux before 5.6): it answers error 38, `ENOSYS`. -/
def Spec.withoutOpenat2 (sys : Sys δ) : Sys δ :=
  { sys with openat2 := fun _ _ _ d => (.error 38, d), openat2_fd := fun _ _ _ _ _ h => by cases h }

/-- **C53**, old kernels: where `openat2` does what `openat` does, mounting and opening give the same results, and
leave the system in the same state, on a kernel that does not have `openat2`. -/
theorem C53_old_kernel (sys : Sys δ)
    (h : ∀ path flags mode d, sys.openat2 path flags.toUInt64 mode.toUInt64 d = sys.openat path flags mode d)
    (hn : ∀ path flags mode d, (sys.openat path flags mode d).1 ≠ .error 38) (target path : CName) (c : MountConfig)
    (d : δ) :
    Linux.mount (Spec.withoutOpenat2 sys) target c d = Linux.mount sys target c d ∧
      Linux.fuseOpen (Spec.withoutOpenat2 sys) path d = Linux.fuseOpen sys path d ∧
      Linux.cuseOpen (Spec.withoutOpenat2 sys) path d = Linux.cuseOpen sys path d := by
  have ho : ∀ path flags mode d, Linux.sysOpen (Spec.withoutOpenat2 sys) path flags mode d =
      Linux.sysOpen sys path flags mode d := by
    intro path flags mode d
    unfold Linux.sysOpen
    rw [h]
    show sys.openat path flags mode d = _
    have hne := hn path flags mode d
    generalize sys.openat path flags mode d = q at hne ⊢
    rcases q with ⟨r, d'⟩
    cases r with
    | ok fd => rfl
    | error e =>
      have he : e ≠ ENOSYS := fun he => hne (by rw [he])
      simp only [he, ↓reduceIte]
  have hf : ∀ path d, Linux.fuseOpen (Spec.withoutOpenat2 sys) path d = Linux.fuseOpen sys path d := by
    intro path d
    unfold Linux.fuseOpen
    rw [ho]
  refine ⟨?_, hf _ _, ?_⟩
  · unfold Linux.mount
    simp only [hf]
    rfl
  · unfold Linux.cuseOpen
    rw [ho]

/-- Mounting with fuse-libc, as `C53_linux`; errors have the numbers of the errors of the system calls. -/
theorem C53_libc (sys : Sys δ) (target : CName) (c : MountConfig) (d : δ) (errno : Int32)
    (hsub : ∀ t, c.opts.subtype = some t → FuseSubtype.new t.cstr = some t) :
    (∃ s d' log errno',
      Libc.mount (record sys) target c ⟨(d, ⟨[], []⟩), errno⟩ = .ok (.ok s, ⟨(d', log), errno'⟩) ∧
      Mounted target c log.events s.fd ∧ s.enodevIsEof = true) ∨
    ∃ (no : Errno) (d' : δ) (log : Log) (errno' : Int32),
      Libc.mount (record sys) target c ⟨(d, ⟨[], []⟩), errno⟩ =
        .ok (.error ⟨Int32.ofNat no.toNat⟩, ⟨(d', log), errno'⟩) ∧
      NotMounted c log no := by
  unfold Libc.mount
  obtain ⟨ha, hb⟩ := libc_fillRootMode (record sys) target c.opts ⟨(d, ⟨[], []⟩), errno⟩
  rcases linux_fillRootMode sys target c.opts d with ⟨no, d1, h1⟩ | ⟨d1, log1, root, h1, hq1, hroot⟩
  · obtain ⟨errno1, h1'⟩ := hb _ _ h1
    rw [h1']
    exact Or.inr ⟨no, d1, _, errno1, rfl, [], by simp, Or.inl ⟨rfl, rfl⟩⟩
  obtain ⟨errno1, h1'⟩ := ha _ _ h1
  rw [h1']
  obtain ⟨d2, log2, uid, h2, hq2, huid⟩ :=
    linux_fillUserId sys { c.opts with rootMode := some ⟨root⟩ } d1 log1 hq1
  obtain ⟨d3, log3, gid, h3, hq3, hgid⟩ :=
    linux_fillGroupId sys { c.opts with rootMode := some ⟨root⟩, userId := some uid } d2 (log1 ++ log2) hq2
  simp only [libc_fillUserId, libc_fillGroupId, h2, h3]
  rcases libc_fuseOpen sys c.dev d3 errno1 (log1 ++ log2 ++ log3) with
    ⟨no, d4, errno4, h4⟩ | ⟨fd, d4, errno4, h4⟩
  · rw [h4]
    exact Or.inr ⟨no, d4, _, errno4, rfl, _, hq3, Or.inl ⟨rfl, rfl⟩⟩
  rw [h4]
  simp only
  rcases linux_mountWith sys target c.flags
      { c.opts with rootMode := some ⟨root⟩, userId := some uid, groupId := some gid } ⟨fd, true⟩ d4
      (log1 ++ log2 ++ log3 ++ [.opened c.dev 0x80002 fd]) []
      (c.opts.mountType.cstr.bytes == cstrFuseblk.bytes) hsub with
    ⟨no, d5, errors', h5, herr⟩ | ⟨d5, text, h5, hz, hl, hp⟩
  · obtain ⟨out', h6, _, h7⟩ := libc_mountWith (record sys) target c.flags _ ⟨fd, true⟩ _ errno4 _ h5
    obtain ⟨errno5, rfl⟩ := h7 _ _ rfl
    rw [h6]
    refine Or.inr ⟨no, d5, _, errno5, rfl, _, hq3, Or.inr ⟨fd, by simp [MountConfig.dev], ?_⟩⟩
    rcases herr with h | ⟨h, hn⟩
    · exact Or.inl h
    · exact Or.inr ⟨h, _, _, _, hn⟩
  · obtain ⟨out', h6, h7, _⟩ := libc_mountWith (record sys) target c.flags _ ⟨fd, true⟩ _ errno4 _ h5
    obtain ⟨errno5, rfl⟩ := h7 _ _ rfl
    rw [h6]
    refine Or.inl ⟨⟨fd, true⟩, d5, _, errno5, rfl, ⟨log1 ++ log2 ++ log3, text, root, uid, gid, hq3, ?_, hz, hl, hp,
      ?_, ?_, hgid⟩, rfl⟩
    · simp [MountConfig.dev]
    · rcases hroot with h | ⟨h, mode, hm, hr⟩
      · exact Or.inl h
      · exact Or.inr ⟨h, mode, by simp [hm], hr⟩
    · rcases huid with h | ⟨h, hm⟩
      · exact Or.inl h
      · exact Or.inr ⟨h, List.mem_append_left _ hm⟩

/-! ## fuse-libc on FreeBSD -/

namespace Bsd

/-- A value of an option as a string (`vfs_getopts`): its last byte must be NUL; it ends at the first. -/
def string (v : Bytes) : Option Bytes :=
  if v.getLast? = some 0 then some (v.takeWhile (· ≠ 0)) else none

/-- The names and values of options passed to `nmount` (`vfs_buildopts`): pairs of vectors; a name is a string that
ends where its vector does. -/
def options : List Bytes → Option (List (Bytes × Bytes))
  | [] => some []
  | [_] => none
  | n :: v :: rest => do
    let name ← string n
    let value ← string v
    let others ← options rest
    if name.length + 1 = n.length then return (name, value) :: others else none

end Bsd

theorem takeWhile_nul {s rest : Bytes} (h : 0 ∉ s) : (s ++ 0 :: rest).takeWhile (· ≠ 0) = s := by
  induction s with
  | nil => rfl
  | cons c s ih =>
    have hc : c ≠ 0 := fun e => h (by simp [e])
    simp only [List.cons_append, List.takeWhile_cons, ne_eq, hc, not_false_eq_true, decide_true, ↓reduceIte]
    exact congrArg _ (ih (fun m => h (by simp [m])))

theorem string_nul {s : Bytes} (h : 0 ∉ s) (n : Nat) : Bsd.string (s ++ 0 :: List.replicate n 0) = some s := by
  unfold Bsd.string
  have : (s ++ 0 :: List.replicate n (0 : UInt8)).getLast? = some 0 := by
    rw [← List.replicate_succ]
    simp [List.getLast?_append, List.getLast?_replicate]
  rw [if_pos this, takeWhile_nul h]

theorem options_cons {n s v : Bytes} {value : Bytes} {rest : List Bytes} (hn : n = s ++ [0]) (hs : 0 ∉ s)
    (hv : Bsd.string v = some value) :
    Bsd.options (n :: v :: rest) = (Bsd.options rest).map fun others => (s, value) :: others := by
  subst hn
  have : Bsd.string (s ++ [0]) = some s := string_nul hs 0
  simp only [Bsd.options, this, hv, bind, Option.bind]
  cases Bsd.options rest with
  | none => rfl
  | some others => simp

theorem length_showNat (k n : Nat) (h : n < 10 ^ (k + 1)) : (showNat 10 n).length ≤ k + 1 := by
  induction k generalizing n with
  | zero => rw [showNat_of_lt (by simpa using h)]; simp
  | succ k ih =>
    by_cases hn : n < 10
    · rw [showNat_of_lt hn]; simp
    · rw [showNat, dif_neg (by omega)]
      have := ih (n / 10) (by rw [Nat.div_lt_iff_lt_mul (by decide)]; rw [Nat.pow_succ] at h; omega)
      simp only [List.length_append, List.length_singleton]
      omega

theorem fmtRawFd_eq (fd : UInt32) : ∃ n, Libc.fmtRawFd (List.replicate 32 0) fd =
    showNat 10 fd.toNat ++ 0 :: List.replicate n 0 := by
  have hl := length_showNat 9 fd.toNat (by have := fd.toNat_lt; omega)
  refine ⟨31 - (showNat 10 fd.toNat).length, ?_⟩
  unfold Libc.fmtRawFd overlay
  rw [List.take_of_length_le (by rw [List.length_replicate]; omega), List.append_assoc]
  congr 1
  simp only [List.singleton_append, List.cons.injEq, true_and, List.drop_replicate, List.length_append,
    List.length_singleton]
  congr 1
  omega

/-- The vectors are always built, and the kernel finds in them the mount point, the descriptor and the configured
options. -/
theorem nmountVectors_options (target : CName) (c : Libc.NmountConfig) (fd : UInt32) :
    ∃ iov digits, Libc.nmountVectors target c fd = .ok iov ∧ Kernel.digits 10 0 digits = some fd.toNat ∧
      Bsd.options iov = some (
        [(ascii ['f', 's', 't', 'y', 'p', 'e'], ascii ['f', 'u', 's', 'e', 'f', 's']),
          (ascii ['f', 'r', 'o', 'm'], ascii ['/', 'd', 'e', 'v', '/', 'f', 'u', 's', 'e']),
          (ascii ['f', 's', 'p', 'a', 't', 'h'], target.bytes), (ascii ['f', 'd'], digits)] ++
        (if c.opts.defaultPermissions then
          [(ascii ['d', 'e', 'f', 'a', 'u', 'l', 't', '_', 'p', 'e', 'r', 'm', 'i', 's', 's', 'i', 'o', 'n', 's'], [])]
         else []) ++
        (match c.opts.subtype with
          | some t => [(ascii ['s', 'u', 'b', 't', 'y', 'p', 'e', '='], t.cstr.bytes)]
          | none => [])) := by
  obtain ⟨n, hfd⟩ := fmtRawFd_eq fd
  have hz : 0 ∉ showNat 10 fd.toNat := by
    intro h
    have := mem_showNat (by decide) (by decide) _ _ h
    simp at this
  have s1 : ∀ s : CName, Bsd.string (s.bytes ++ [0]) = some s.bytes := fun s => string_nul s.noNul 0
  have s2 : Bsd.string (Libc.fmtRawFd (List.replicate 32 0) fd) = some (showNat 10 fd.toNat) := by
    rw [hfd]; exact string_nul hz n
  have first : ∀ rest, Bsd.options (
      ascii ['f', 's', 't', 'y', 'p', 'e', '\u0000'] :: ascii ['f', 'u', 's', 'e', 'f', 's', '\u0000'] ::
      ascii ['f', 'r', 'o', 'm', '\u0000'] :: ascii ['/', 'd', 'e', 'v', '/', 'f', 'u', 's', 'e', '\u0000'] ::
      ascii ['f', 's', 'p', 'a', 't', 'h', '\u0000'] :: (target.bytes ++ [0]) ::
      ascii ['f', 'd', '\u0000'] :: Libc.fmtRawFd (List.replicate 32 0) fd :: rest) =
      (Bsd.options rest).map fun others =>
        (ascii ['f', 's', 't', 'y', 'p', 'e'], ascii ['f', 'u', 's', 'e', 'f', 's']) ::
        (ascii ['f', 'r', 'o', 'm'], ascii ['/', 'd', 'e', 'v', '/', 'f', 'u', 's', 'e']) ::
        (ascii ['f', 's', 'p', 'a', 't', 'h'], target.bytes) :: (ascii ['f', 'd'], showNat 10 fd.toNat) :: others := by
    intro rest
    have e1 := fun rest => options_cons (n := ascii ['f', 's', 't', 'y', 'p', 'e', '\u0000'])
      (s := ascii ['f', 's', 't', 'y', 'p', 'e']) (v := ascii ['f', 'u', 's', 'e', 'f', 's', '\u0000'])
      (value := ascii ['f', 'u', 's', 'e', 'f', 's']) (rest := rest) rfl (by decide) (by decide)
    have e2 := fun rest => options_cons (n := ascii ['f', 'r', 'o', 'm', '\u0000'])
      (s := ascii ['f', 'r', 'o', 'm']) (v := ascii ['/', 'd', 'e', 'v', '/', 'f', 'u', 's', 'e', '\u0000'])
      (value := ascii ['/', 'd', 'e', 'v', '/', 'f', 'u', 's', 'e']) (rest := rest) rfl (by decide) (by decide)
    have e3 := fun rest => options_cons (n := ascii ['f', 's', 'p', 'a', 't', 'h', '\u0000'])
      (s := ascii ['f', 's', 'p', 'a', 't', 'h']) (rest := rest) rfl (by decide) (s1 target)
    have e4 := fun rest => options_cons (n := ascii ['f', 'd', '\u0000'])
      (s := ascii ['f', 'd']) (rest := rest) rfl (by decide) s2
    rw [e1, e2, e3, e4]
    simp only [Option.map_map]
    rfl
  have dp : ∀ rest, Bsd.options (ascii ['d', 'e', 'f', 'a', 'u', 'l', 't', '_', 'p', 'e', 'r', 'm', 'i', 's', 's', 'i',
      'o', 'n', 's', '\u0000'] :: [0] :: rest) = (Bsd.options rest).map fun others =>
        (ascii ['d', 'e', 'f', 'a', 'u', 'l', 't', '_', 'p', 'e', 'r', 'm', 'i', 's', 's', 'i', 'o', 'n', 's'], []) ::
        others := fun rest => options_cons rfl (by decide) (by decide)
  have st : ∀ (t : CName) (rest : List Bytes), Bsd.options (ascii ['s', 'u', 'b', 't', 'y', 'p', 'e', '=', '\u0000'] ::
      (t.bytes ++ [0]) :: rest) = (Bsd.options rest).map fun others =>
        (ascii ['s', 'u', 'b', 't', 'y', 'p', 'e', '='], t.bytes) :: others :=
    fun t rest => options_cons rfl (by decide) (s1 t)
  rcases c with ⟨⟨d, sub⟩, flags⟩
  refine ⟨[
    ascii ['f', 's', 't', 'y', 'p', 'e', '\u0000'], ascii ['f', 'u', 's', 'e', 'f', 's', '\u0000'],
    ascii ['f', 'r', 'o', 'm', '\u0000'], ascii ['/', 'd', 'e', 'v', '/', 'f', 'u', 's', 'e', '\u0000'],
    ascii ['f', 's', 'p', 'a', 't', 'h', '\u0000'], target.bytes ++ [0],
    ascii ['f', 'd', '\u0000'], Libc.fmtRawFd (List.replicate 32 0) fd] ++
    ((if d then [ascii ['d', 'e', 'f', 'a', 'u', 'l', 't', '_', 'p', 'e', 'r', 'm', 'i', 's', 's', 'i', 'o', 'n', 's',
      '\u0000'], [0]] else []) ++
    (match sub with
      | some t => [ascii ['s', 'u', 'b', 't', 'y', 'p', 'e', '=', '\u0000'], t.cstr.bytes ++ [0]]
      | none => [])), showNat 10 fd.toNat, ?_, digits_showNat (by decide) (by decide) _, ?_⟩
  · cases d <;> cases sub <;> rfl
  · simp only [List.cons_append, List.nil_append]
    rw [first]
    cases d <;> cases sub
    · rfl
    · exact congrArg (Option.map _) (st _ [])
    · exact congrArg (Option.map _) (dp [])
    · exact congrArg (Option.map _) ((dp _).trans (congrArg (Option.map _) (st _ [])))

/-- Mounting on FreeBSD never faults; it succeeds with a socket for the device that was mounted, with the options
configured, or fails and leaves nothing behind. -/
theorem C54 (sys : Sys δ) (target : CName) (c : Libc.NmountConfig) (d : δ) (errno : Int32) :
    (∃ s d' errno' flags iov digits errors,
      Libc.nmount (record sys) target c ⟨(d, ⟨[], []⟩), errno⟩ = .ok (.ok s,
        ⟨(d', ⟨[.opened DEV_FUSE flags s.fd, .nmounted iov c.flags], errors⟩), errno'⟩) ∧
      s.enodevIsEof = true ∧
      Kernel.digits 10 0 digits = some s.fd.toUInt32.toNat ∧
      Bsd.options iov = some (
        [(ascii ['f', 's', 't', 'y', 'p', 'e'], ascii ['f', 'u', 's', 'e', 'f', 's']),
          (ascii ['f', 'r', 'o', 'm'], ascii ['/', 'd', 'e', 'v', '/', 'f', 'u', 's', 'e']),
          (ascii ['f', 's', 'p', 'a', 't', 'h'], target.bytes), (ascii ['f', 'd'], digits)] ++
        (if c.opts.defaultPermissions then
          [(ascii ['d', 'e', 'f', 'a', 'u', 'l', 't', '_', 'p', 'e', 'r', 'm', 'i', 's', 's', 'i', 'o', 'n', 's'], [])]
         else []) ++
        (match c.opts.subtype with
          | some t => [(ascii ['s', 'u', 'b', 't', 'y', 'p', 'e', '='], t.cstr.bytes)]
          | none => []))) ∨
    ∃ (no : Errno) (d' : δ) (log : Log) (errno' : Int32),
      Libc.nmount (record sys) target c ⟨(d, ⟨[], []⟩), errno⟩ =
        .ok (.error ⟨Int32.ofNat no.toNat⟩, ⟨(d', log), errno'⟩) ∧
      log.errors.getLast? = some no ∧
      (log.events = [] ∨ ∃ flags fd, log.events = [.opened DEV_FUSE flags fd, .closed fd]) := by
  unfold Libc.nmount
  rcases libc_fuseOpen sys DEV_FUSE d errno [] with ⟨no, d1, errno1, h1⟩ | ⟨fd, d1, errno1, h1⟩
  · rw [h1]
    exact Or.inr ⟨no, d1, _, errno1, rfl, rfl, Or.inl rfl⟩
  rw [h1]
  obtain ⟨iov, digits, h2, h3, h4⟩ := nmountVectors_options target c (Libc.fuseDeviceFd ⟨fd, true⟩)
  simp only [h2, bind, Except.bind]
  cases h5 : sys.nmount iov c.flags d1 with
  | mk r d2 =>
    cases r with
    | ok u =>
      have h6 : (record sys).nmount iov c.flags (d1, ⟨[] ++ [.opened DEV_FUSE 0x80002 fd], []⟩) =
          (.ok (), (d2, ⟨[.opened DEV_FUSE 0x80002 fd, .nmounted iov c.flags], []⟩)) := by
        simp only [record, h5, logged]; rfl
      rw [h6]
      exact Or.inl ⟨⟨fd, true⟩, d2, errno1, 0x80002, iov, digits, [], rfl, rfl, h3, h4⟩
    | error no =>
      have h6 : (record sys).nmount iov c.flags (d1, ⟨[] ++ [.opened DEV_FUSE 0x80002 fd], []⟩) =
          (.error no, (d2, ⟨[.opened DEV_FUSE 0x80002 fd], [no]⟩)) := by
        simp only [record, h5, logged]; rfl
      rw [h6]
      obtain ⟨errno2, h7⟩ := libc_drop (record sys) ⟨fd, true⟩
        ⟨(d2, ⟨[.opened DEV_FUSE 0x80002 fd], [no]⟩), Libc.cInt no⟩
      refine Or.inr ⟨no, (sys.close fd d2).2, ⟨[.opened DEV_FUSE 0x80002 fd, .closed fd], [no]⟩, errno2, ?_, rfl,
        Or.inr ⟨_, fd, rfl⟩⟩
      exact congrArg (fun t => Except.ok (Except.error (⟨Libc.cInt no⟩ : Libc.LibcError), t)) h7

/-- The calls that configure a mount on FreeBSD. -/
inductive BsdCall
  | defaultPermissions (b : Bool)
  | subtype (s : Option CName)

/-- One call; a subtype is given as a C string, of which `FuseSubtype::new` accepts the non-empty ones. -/
def BsdCall.run (o : Libc.BsdMountOptions) : BsdCall → Libc.BsdMountOptions
  | .defaultPermissions b => o.setDefaultPermissions b
  | .subtype s => o.setSubtype (s.bind Libc.BsdSubtype.new)

/-- C54: after any sequence of calls of the setters, the configuration holds for each option the value last set:
without calls, no permission checks by the kernel, no subtype and only the flag `MNT_NOSUID`; an empty subtype
counts as none. -/
theorem C54_options (cs : List BsdCall) (fs : List Int32) :
    let c := fs.foldl Libc.NmountConfig.setFlags (.ofOptions (cs.foldl BsdCall.run .new))
    c.opts.defaultPermissions = lastSet (fun | .defaultPermissions b => some b | _ => none) cs false ∧
    c.opts.subtype.map (·.cstr.bytes) = lastSet (fun
      | .subtype s => some ((s.map (·.bytes)).filter (!·.isEmpty))
      | _ => none) cs none ∧
    c.flags = fs.getLast?.getD 8 := by
  have hopts : ∀ (fs : List Int32) (c : Libc.NmountConfig),
      (fs.foldl Libc.NmountConfig.setFlags c).opts = c.opts := by
    intro fs
    induction fs with
    | nil => intro c; rfl
    | cons f fs ih => intro c; exact ih _
  have hflags : ∀ (fs : List Int32) (c : Libc.NmountConfig),
      (fs.foldl Libc.NmountConfig.setFlags c).flags = fs.getLast?.getD c.flags := by
    intro fs
    induction fs with
    | nil => intro c; rfl
    | cons f fs ih =>
      intro c
      rw [List.foldl_cons, ih]
      cases fs with
      | nil => rfl
      | cons g fs =>
        rw [List.getLast?_cons_cons]
        obtain ⟨x, hx⟩ : ∃ x, (g :: fs).getLast? = some x := ⟨_, List.getLast?_eq_some_getLast (by simp)⟩
        rw [hx]; rfl
  simp only
  refine ⟨?_, ?_, hflags fs _⟩
  · rw [hopts]
    exact foldl_lastSet _ (fun o : Libc.BsdMountOptions => o.defaultPermissions) _
      (fun o c => by cases c <;> rfl) cs .new
  · rw [hopts]
    refine foldl_lastSet _ (fun o : Libc.BsdMountOptions => o.subtype.map (·.cstr.bytes)) _
      (fun o c => ?_) cs .new
    cases c with
    | defaultPermissions b => rfl
    | subtype s =>
      cases s with
      | none => rfl
      | some s =>
        simp only [BsdCall.run, Libc.BsdMountOptions.setSubtype, Option.bind_some, Libc.BsdSubtype.new, Option.map_some,
          Option.filter_some]
        cases h : s.bytes.isEmpty <;> simp

/-! ### Examples -/

/-- A subtype set and then replaced by an empty one is gone; the last flags count. -/
example : let c := [0, 16].foldl Libc.NmountConfig.setFlags (.ofOptions
    ([BsdCall.subtype (some ⟨[120], by decide⟩), .defaultPermissions true, .subtype (some ⟨[], by decide⟩)].foldl
      BsdCall.run .new))
    (c.opts.defaultPermissions, c.opts.subtype.isSome, c.flags) = (true, false, 16) := by decide

/-- A system where opening returns descriptor 3, the mount point is a directory with mode 755, and the caller's user
and group are 7. -/
def mountSys (answer : Except Errno Unit) : Sys Nat where
  read := fun _ _ d => ((.error ENODEV, []), d)
  read_fits := by intros; simp
  read_count := by intro _ _ _ _ h; simp at h
  writev := fun _ _ d => (.error ENODEV, d)
  openat2 := fun _ _ _ d => (.ok 3, d)
  openat2_fd := by intro _ _ _ _ _ h; cases h; decide
  openat := fun _ _ _ d => (.ok 3, d)
  openat_fd := by intro _ _ _ _ _ h; cases h; decide
  close := fun _ d => (.ok (), d)
  statx := fun _ d => (.ok 0o40755, d)
  getuid := fun d => (7, d)
  getgid := fun d => (7, d)
  mount := fun _ _ _ _ _ d => (answer, d)
  nmount := fun _ _ d => (answer, d)

/-- The target `/m`. -/
def exampleTarget : CName := ⟨ascii ['/', 'm'], by decide⟩

/-- A mount of `/m` with a configured user: the root mode and group are queried, then the device is opened. -/
example : (match Linux.mount (record (mountSys (.ok ()))) exampleTarget { opts := { userId := some 5 } } (0, ⟨[], []⟩) with
    | .ok (.ok s, (_, ⟨[.stat _ mode, .gid g, .opened _ flags fd, .mounted _ _ _ _ data], []⟩)) =>
      (s.fd, mode, g, flags, fd, data.take 17) == (3, 0o40755, 7, 0x80002, 3,
        ascii ['f', 'd', '=', '3', ',', 'g', 'r', 'o', 'u', 'p', '_', 'i', 'd', '=', '7', ',', 'r'])
    | _ => false) = true := by
  decide +kernel

/-- The same mount on a kernel without `openat2`. -/
example : (match Linux.mount (record (Spec.withoutOpenat2 (mountSys (.ok ())))) exampleTarget { opts := { userId := some 5 } }
      (0, ⟨[], []⟩) with
    | .ok (.ok s, (_, ⟨[.stat _ _, .gid _, .opened _ flags fd, .mounted _ _ _ _ _], _⟩)) =>
      (s.fd, flags, fd) == (3, 0x80002, 3)
    | _ => false) = true := by
  decide +kernel

/-- A refused mount: the device is closed, and the error is that of the mount. -/
example : (match Linux.mount (record (mountSys (.error EINVAL))) exampleTarget { opts := {} } (0, ⟨[], []⟩) with
    | .ok (.error e, (_, ⟨[.stat _ _, .uid 7, .gid 7, .opened _ _ 3, .closed 3], [e']⟩)) => e == EINVAL && e' == EINVAL
    | _ => false) = true := by
  decide +kernel

/-- The same two cases on FreeBSD. -/
example : ∃ iov, Libc.nmount (record (mountSys (.ok ()))) exampleTarget ⟨⟨true, none⟩, 0⟩ ⟨(0, ⟨[], []⟩), 0⟩ =
    .ok (.ok ⟨3, true⟩, ⟨(0, ⟨[.opened DEV_FUSE 0x80002 3, .nmounted iov 0], []⟩), 0⟩) ∧ iov.length = 10 :=
  ⟨_, rfl, rfl⟩

example : Libc.nmount (record (mountSys (.error EINVAL))) exampleTarget ⟨⟨true, none⟩, 0⟩ ⟨(0, ⟨[], []⟩), 0⟩ =
    .ok (.error ⟨22⟩, ⟨(0, ⟨[.opened DEV_FUSE 0x80002 3, .closed 3], [EINVAL]⟩), 22⟩) :=
  rfl

end Fuse
