import Verif.Requests

/-!
# Specification vocabulary for decoded requests

Observations of a decoded request, used by the theorem statements: which accessors may fault,
which node IDs and names it exposes.
-/

namespace Fuse

/-- The computation completes without a fault. -/
def Returns {α} (x : Except Fault α) : Prop := ∃ a, x = .ok a

/-- Every public accessor of the request that is implemented with an unchecked operation returns
normally. -/
def AnyRequest.AccessorsReturn : AnyRequest → Prop
  | .bmap r => Returns r.nodeId
  | .copyFileRange r => Returns r.inputNodeId ∧ Returns r.outputNodeId
  | .fallocate r => Returns r.nodeId
  | .fsyncdir r => Returns r.nodeId
  | .getlk r => Returns r.nodeId
  | .getxattr r => Returns r.nodeId
  | .interrupt r => Returns r.requestId
  | .listxattr r => Returns r.nodeId
  | .opendir r => Returns r.nodeId
  | .poll r => Returns r.nodeId
  | .removexattr r => Returns r.nodeId
  | .setattr r => Returns r.nodeId ∧ Returns r.atime ∧ Returns r.mtime ∧ Returns r.ctime
  | .setlk r => Returns r.nodeId
  | .create r => Returns r.nodeId ∧ Returns r.flags ∧ Returns r.openFlags ∧ Returns r.mode ∧
      Returns r.umask
  | .getattr r => Returns r.nodeId ∧ Returns r.handle
  | .mknod r => Returns r.parentId ∧ Returns r.mode ∧ Returns r.umask ∧ Returns r.deviceNumber
  | .readdir r => Returns r.nodeId ∧ Returns r.size ∧ Returns r.offset ∧ Returns r.handle ∧
      Returns r.openFlags
  | .readdirplus r => Returns r.nodeId ∧ Returns r.size ∧ Returns r.offset ∧ Returns r.handle ∧
      Returns r.openFlags
  | .releasedir r => Returns r.nodeId ∧ Returns r.handle ∧ Returns r.lockOwner ∧
      Returns r.openFlags
  | .setxattr r => Returns r.nodeId ∧ Returns r.flags ∧ Returns r.setxattrFlags
  | .read r => Returns r.size ∧ Returns r.offset ∧ Returns r.handle ∧ Returns r.lockOwner ∧
      Returns r.openFlags
  | .release r => Returns r.handle ∧ Returns r.lockOwner ∧ Returns r.openFlags
  | .write r => Returns r.nodeId ∧ Returns r.offset ∧ Returns r.handle ∧ Returns r.value ∧
      Returns r.flags ∧ Returns r.lockOwner ∧ Returns r.openFlags
  | _ => True

/-- The node names a request exposes. -/
def AnyRequest.names : AnyRequest → List NodeName
  | .link r => [r.newName]
  | .lookup r => [r.name]
  | .mkdir r => [r.name]
  | .rename r => [r.oldName, r.newName]
  | .rmdir r => [r.name]
  | .symlink r => [r.name]
  | .unlink r => [r.name]
  | .create r => [r.name]
  | .mknod r => [r.name]
  | _ => []

/-- The node IDs a request exposes, the one taken from the message header first. -/
def AnyRequest.nodeIds : AnyRequest → List (Except Fault NodeId)
  | .access r => [.ok r.nodeId]
  | .bmap r => [r.nodeId]
  | .copyFileRange r => [r.inputNodeId, r.outputNodeId]
  | .fallocate r => [r.nodeId]
  | .fsyncdir r => [r.nodeId]
  | .getlk r => [r.nodeId]
  | .getxattr r => [r.nodeId]
  | .link r => [.ok r.newParentId, .ok r.nodeId]
  | .listxattr r => [r.nodeId]
  | .lookup r => [.ok r.parentId]
  | .lseek r => [.ok r.nodeId]
  | .mkdir r => [.ok r.parentId]
  | .opendir r => [r.nodeId]
  | .poll r => [r.nodeId]
  | .readlink r => [.ok r.nodeId]
  | .removexattr r => [r.nodeId]
  | .rename r => [.ok r.oldDirectoryId, .ok r.newDirectoryId]
  | .rmdir r => [.ok r.parentId]
  | .setattr r => [r.nodeId]
  | .setlk r => [r.nodeId]
  | .statfs r => [.ok r.nodeId]
  | .symlink r => [.ok r.parentId]
  | .unlink r => [.ok r.parentId]
  | .create r => [r.nodeId]
  | .getattr r => [r.nodeId]
  | .mknod r => [r.parentId]
  | .readdir r => [r.nodeId]
  | .readdirplus r => [r.nodeId]
  | .releasedir r => [r.nodeId]
  | .setxattr r => [r.nodeId]
  | .flush r => [.ok r.nodeId]
  | .fsync r => [.ok r.nodeId]
  | .ioctl r => [.ok r.nodeId]
  | .open_ r => [.ok r.nodeId]
  | .read r => [.ok r.nodeId]
  | .release r => [.ok r.nodeId]
  | .write r => [r.nodeId]
  | _ => []

/-- Request types decoded for a CUSE session, in which the header carries no node ID. -/
def ReqType.isCuse : ReqType → Bool
  | .flush c | .fsync c | .ioctl c | .open_ c | .read _ c | .release _ c | .write _ c => c
  | .cuseInit => true
  | _ => false

/-- The message opcodes each request type accepts. -/
def ReqType.opcodes : ReqType → List UInt32
  | .access => [34]
  | .bmap => [37]
  | .copyFileRange => [47]
  | .fallocate => [43]
  | .forget _ => [2, 42]
  | .fsyncdir => [30]
  | .getlk => [31]
  | .getxattr => [22]
  | .interrupt => [36]
  | .link => [13]
  | .listxattr => [23]
  | .lookup => [1]
  | .lseek => [46]
  | .mkdir => [9]
  | .opendir => [27]
  | .poll => [40]
  | .readlink => [5]
  | .removexattr => [24]
  | .rename => [12, 45]
  | .rmdir => [11]
  | .setattr => [4]
  | .setlk => [32, 33]
  | .statfs => [17]
  | .symlink => [6]
  | .unlink => [10]
  | .fuseInit => [26]
  | .cuseInit => [4096]
  | .create _ => [35]
  | .getattr _ => [3]
  | .mknod _ => [8]
  | .readdir _ => [28]
  | .readdirplus _ => [44]
  | .releasedir _ => [29]
  | .setxattr _ => [21]
  | .flush _ => [25]
  | .fsync _ => [20]
  | .ioctl _ => [39]
  | .open_ _ => [14]
  | .read _ _ => [15]
  | .release _ _ => [18]
  | .write _ _ => [16]

end Fuse
