import Verif.HostileDev
import Verif.Many

/-!
# Clients that send anything, served by threads

What `Hostile` and `HostileDev` are for a server with one thread, for the threads of `serve_fuse` and `serve_cuse`.  Programs
choose the whole of their messages, as they like, but for the number, which is given by whoever sends the messages for them
(the kernel), as in `Many`.
-/

namespace Fuse
open Spec

namespace Many

/-- A message with another number. -/
def renumber (id : UInt64) (m : Bytes) : Bytes := m.take 8 ++ le64 id ++ m.drop 16

/-- Whether replies are of this kind. -/
def replied : Kind → Bool
  | .silent => false
  | _ => true

/-- Messages of any contents.  A reply is read as one to what the message asks for, and as one without contents if that is
nothing. -/
def anyWire {O : Type} (ask : Bytes → Option (Caller × O)) (kind : O → Kind) (no : Bytes → Option FuseError) :
    Wire Bytes Ans Empty where
  answered m :=
    match ask m with
    | some (_, op) => replied (kind op)
    | none => (no m).isSome
  silent := .silent
  message := renumber
  hear m id reply :=
    match ask m with
    | some (_, op) => (kind op).hear id [reply]
    | none => Kind.empty.hear id [reply]
  news _ := none

/-- What a message brings about. -/
def anyAct {O S : Type} (ask : Bytes → Option (Caller × O)) (no : Bytes → Option FuseError) (act : Caller → O → S → Ans × S)
    (m : Bytes) (s : S) : List Empty × Ans × S :=
  match ask m with
  | some (who, op) => ([], act who op s)
  | none => ([], match no m with | some e => .error e | none => .silent, s)

/-- The error for a message that asks for nothing of a filesystem. -/
def fuseNo (layout : FuseLayout) (m : Bytes) : Option FuseError :=
  if unanswered (u32At m 4) then none
  else some (if (typeFor layout (u32At m 4)).isNone then ⟨-38, by decide⟩ else ⟨-5, by decide⟩)

/-- The error for a message that asks for nothing of a device. -/
def deviceNo (layout : CuseLayout) (m : Bytes) : Option FuseError :=
  if u32At m 4 = 36 then none
  else some (if (devTypeFor layout (u32At m 4)).isNone then ⟨-38, by decide⟩ else ⟨-5, by decide⟩)

/-- A filesystem that refuses what it cannot decode, through the threads of `serve_fuse`, fuse-std/fuse-std.rs:121-147. -/
def guardedThreads {S : Type} (srv : RpcServer S) : Service (Option S × Net) Unit :=
  fuseService (Net.socket S) (srv.guards (Net.socket S))

/-- A character device that refuses what it cannot decode, through the threads of `serve_cuse`,
fuse-std/fuse-std.rs:176-202. -/
def guardedDeviceThreads {S : Type} (srv : DevServer S) : Service (Option S × Net) Unit :=
  cuseService (Net.socket S) (srv.guards (Net.socket S))

end Many

end Fuse
