import Verif.Conform
import Verif.DebugPretty
import Verif.DebugResp

/-!
# The unit tests of formatted responses, run on the model

Like `ConformDebug`, for the tests that format a response.
-/

namespace Fuse.Conform

-- fuse/operations/cuse_init/cuse_init_test.rs:136-172
example :
    let r := (((((CuseInitResponse.new ⟨Fuse.text "test-device"⟩).setVersion ⟨123, 456⟩).setMaxRead 4096).setMaxWrite 8192
      ).setDeviceNumber ⟨10, 11⟩).setFlags 1
    (Dbg.cuseInitResponse r).pretty 0 = Fuse.text
      ("CuseInitResponse {\n    device_name: \"test-device\",\n    version: Version {\n        major: 123,\n" ++
        "        minor: 456,\n    },\n    flags: CuseInitFlags {\n        UNRESTRICTED_IOCTL,\n    },\n" ++
        "    max_read: 4096,\n    max_write: 8192,\n    device_number: DeviceNumber {\n        major: 10,\n" ++
        "        minor: 11,\n    },\n}") := by decide +kernel

/-- The entries of the following test. -/
def debugEntries : List ReaddirEntry :=
  [(ReaddirEntry.new ⟨100, by decide⟩ ⟨Fuse.text "hello.txt"⟩ ⟨1, by decide⟩).setFileType .regular,
    (ReaddirEntry.new ⟨101, by decide⟩ ⟨Fuse.text "world.txt"⟩ ⟨2, by decide⟩).setFileType .regular]

/-- The listing with the entries, formatted with `{:#?}`. -/
def showsEntries (es : List ReaddirEntry) (t : String) : Bool :=
  match (DirWriter.new 0 (List.replicate 1024 0)).pushAll es with
  | .error _ => false
  | .ok (oks, w) =>
    oks.all (·) && match w.intoEntries with
      | .error _ => false
      | .ok buf =>
        match iterate (direntCollectStep FuseDirent) 100 (buf, []) with
        | .inl (.ok es) =>
          match es.mapM readdirEntryDebug with
          | .ok ds => (Dbg.list ds).pretty 0 == Fuse.text t
          | .error _ => false
        | _ => false

-- fuse/operations/readdir/readdir_test.rs:158-202
example : showsEntries debugEntries
    ("[\n    ReaddirEntry {\n        node_id: 100,\n        offset: 1,\n        file_type: Some(Regular),\n" ++
      "        name: \"hello.txt\",\n    },\n    ReaddirEntry {\n        node_id: 101,\n        offset: 2,\n" ++
      "        file_type: Some(Regular),\n        name: \"world.txt\",\n    },\n]") := by decide +kernel

end Fuse.Conform
