import Verif.PropHello

/-!
# C57: mounting the example on FreeBSD
-/

namespace Fuse

/-- `mount`, examples/helloworld/helloworld.rs:213-223, of the target given on the command line (226). -/
def helloNmount {δ : Type} (sys : Sys δ) (target : Bytes) (t : Libc.Thread δ) :
    Except Fault (DeviceSocket × Libc.Thread δ) := do
  if h : 0 ∈ target then throw .panic
  else
    match Libc.BsdSubtype.new helloCStr with
    | some subtype =>
      match ← Libc.nmount sys ⟨target, h⟩ (.ofOptions (Libc.BsdMountOptions.new.setSubtype (some subtype))) t with
      | (.ok s, t) => return (s, t)
      | (.error _, _) => throw .panic
    | none => throw .panic

/-- **C57**, mounting on FreeBSD: for every target without a NUL byte and every behaviour of the system calls, the
program opens `/dev/fuse` and mounts it at the target, with the subtype `helloworld`, no other option than the
required ones, and set-user-id bits ignored; or it panics, and then a system call failed, and nothing was mounted or
left open. -/
theorem C57_mount_freebsd {δ : Type} (sys : Sys δ) (target : Bytes) (h0 : 0 ∉ target) (d : δ) (errno : Int32) :
    (∃ s d' errno' flags iov digits errors,
      helloNmount (record sys) target ⟨(d, ⟨[], []⟩), errno⟩ =
        .ok (s, ⟨(d', ⟨[.opened DEV_FUSE flags s.fd, .nmounted iov 8], errors⟩), errno'⟩) ∧
      s.enodevIsEof = true ∧
      Kernel.digits 10 0 digits = some s.fd.toUInt32.toNat ∧
      Bsd.options iov = some
        [(ascii ['f', 's', 't', 'y', 'p', 'e'], ascii ['f', 'u', 's', 'e', 'f', 's']),
          (ascii ['f', 'r', 'o', 'm'], ascii ['/', 'd', 'e', 'v', '/', 'f', 'u', 's', 'e']),
          (ascii ['f', 's', 'p', 'a', 't', 'h'], target), (ascii ['f', 'd'], digits),
          (ascii ['s', 'u', 'b', 't', 'y', 'p', 'e', '='],
            ascii ['h', 'e', 'l', 'l', 'o', 'w', 'o', 'r', 'l', 'd'])]) ∨
    (helloNmount (record sys) target ⟨(d, ⟨[], []⟩), errno⟩ = .error .panic ∧
      ∃ (e : Libc.LibcError) (no : Errno) (d' : δ) (log : Log) (errno' : Int32),
      Libc.nmount (record sys) ⟨target, h0⟩ ⟨⟨false, some ⟨helloCStr⟩⟩, 8⟩ ⟨(d, ⟨[], []⟩), errno⟩ = .ok (.error e, ⟨(d', log), errno'⟩) ∧
      log.errors.getLast? = some no ∧
      (log.events = [] ∨ ∃ flags fd, log.events = [.opened DEV_FUSE flags fd, .closed fd])) := by
  have ht : Libc.BsdSubtype.new helloCStr = some ⟨helloCStr⟩ := by
    unfold Libc.BsdSubtype.new; rw [if_neg (by decide +kernel)]
  have hc : helloCStr.bytes = ascii ['h', 'e', 'l', 'l', 'o', 'w', 'o', 'r', 'l', 'd'] := by decide +kernel
  let c : Libc.NmountConfig := .ofOptions (Libc.BsdMountOptions.new.setSubtype (some ⟨helloCStr⟩))
  rcases C54 sys ⟨target, h0⟩ c d errno with
    ⟨s, d', errno', flags, iov, digits, errors, h1, h2, h3, h4⟩ | ⟨no, d', log, errno', h1, h2, h3⟩
  · refine .inl ⟨s, d', errno', flags, iov, digits, errors, ?_, h2, h3, ?_⟩
    · unfold helloNmount
      rw [dif_neg h0, ht]
      show (Libc.nmount _ _ c _ >>= _) = _
      rw [h1]; rfl
    · rw [← hc]; exact h4
  · refine .inr ⟨?_, _, no, d', log, errno', h1, h2, h3⟩
    unfold helloNmount
    rw [dif_neg h0, ht]
    show (Libc.nmount _ _ c _ >>= _) = _
    rw [h1]; rfl

/-- A target with a NUL byte is refused before any system call: the program panics. -/
theorem C57_mount_nul {δ : Type} (sys : Sys δ) (uid gid : UInt32) (target : Bytes) (h0 : 0 ∈ target)
    (t : Libc.Thread δ) :
    helloMount sys uid gid target t = .error .panic ∧ helloNmount sys target t = .error .panic := by
  unfold helloMount helloNmount
  rw [dif_pos h0, dif_pos h0]
  exact ⟨rfl, rfl⟩

/-- Mounting at `/mnt` with system calls that succeed: the file descriptor 3 is given in decimal. -/
example : (match helloNmount (record (mountSys (.ok ()))) (ascii ['/', 'm', 'n', 't']) ⟨(0, ⟨[], []⟩), 0⟩ with
    | .ok (s, ⟨(_, ⟨[.opened _ _ 3, .nmounted iov 8], []⟩), _⟩) =>
      (s.fd, (Bsd.options iov).map (·.drop 3)) == (3, some [(ascii ['f', 'd'], [51]),
        (ascii ['s', 'u', 'b', 't', 'y', 'p', 'e', '='], "helloworld".toUTF8.toList)])
    | _ => false) = true := by
  decide +kernel

end Fuse
