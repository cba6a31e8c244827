/-
Transcription of /repo/rfc1813/prot.x, types.go and xdr.go, made by tools/transcribe.py.
-/
import Verif.Inst.Syntax

namespace Verif.Inst.Rfc1813
open Verif.Gen Verif.Inst

/-- /repo/rfc1813/prot.x -/
def spec : Spec :=
  [.const "PROGRAM" 100003,
   .const "VERSION" 3,
   .const "NFS3_FHSIZE" 64,
   .const "NFS3_COOKIEVERFSIZE" 8,
   .const "NFS3_CREATEVERFSIZE" 8,
   .const "NFS3_WRITEVERFSIZE" 8,
   .typedef (.name (.typespec (.hyper true)) "uint64"),
   .typedef (.name (.typespec (.int true)) "uint32"),
   .typedef (.name (.string none) "filename3"),
   .typedef (.name (.string none) "nfspath3"),
   .typedef (.name (.typespec (.ident "uint64")) "fileid3"),
   .typedef (.name (.typespec (.ident "uint64")) "cookie3"),
   .typedef (.name (.opaqueArray (.ident "NFS3_COOKIEVERFSIZE")) "cookieverf3"),
   .typedef (.name (.opaqueArray (.ident "NFS3_CREATEVERFSIZE")) "createverf3"),
   .typedef (.name (.opaqueArray (.ident "NFS3_WRITEVERFSIZE")) "writeverf3"),
   .typedef (.name (.typespec (.ident "uint32")) "uid3"),
   .typedef (.name (.typespec (.ident "uint32")) "gid3"),
   .typedef (.name (.typespec (.ident "uint64")) "size3"),
   .typedef (.name (.typespec (.ident "uint64")) "offset3"),
   .typedef (.name (.typespec (.ident "uint32")) "mode3"),
   .typedef (.name (.typespec (.ident "uint32")) "count3"),
   .enum "nfsstat3" [⟨"NFS3_OK", (.lit 0)⟩, ⟨"NFS3ERR_PERM", (.lit 1)⟩, ⟨"NFS3ERR_NOENT", (.lit 2)⟩, ⟨"NFS3ERR_IO", (.lit 5)⟩, ⟨"NFS3ERR_NXIO", (.lit 6)⟩, ⟨"NFS3ERR_ACCES", (.lit 13)⟩, ⟨"NFS3ERR_EXIST", (.lit 17)⟩, ⟨"NFS3ERR_XDEV", (.lit 18)⟩, ⟨"NFS3ERR_NODEV", (.lit 19)⟩, ⟨"NFS3ERR_NOTDIR", (.lit 20)⟩, ⟨"NFS3ERR_ISDIR", (.lit 21)⟩, ⟨"NFS3ERR_INVAL", (.lit 22)⟩, ⟨"NFS3ERR_FBIG", (.lit 27)⟩, ⟨"NFS3ERR_NOSPC", (.lit 28)⟩, ⟨"NFS3ERR_ROFS", (.lit 30)⟩, ⟨"NFS3ERR_MLINK", (.lit 31)⟩, ⟨"NFS3ERR_NAMETOOLONG", (.lit 63)⟩, ⟨"NFS3ERR_NOTEMPTY", (.lit 66)⟩, ⟨"NFS3ERR_DQUOT", (.lit 69)⟩, ⟨"NFS3ERR_STALE", (.lit 70)⟩, ⟨"NFS3ERR_REMOTE", (.lit 71)⟩, ⟨"NFS3ERR_BADHANDLE", (.lit 10001)⟩, ⟨"NFS3ERR_NOT_SYNC", (.lit 10002)⟩, ⟨"NFS3ERR_BAD_COOKIE", (.lit 10003)⟩, ⟨"NFS3ERR_NOTSUPP", (.lit 10004)⟩, ⟨"NFS3ERR_TOOSMALL", (.lit 10005)⟩, ⟨"NFS3ERR_SERVERFAULT", (.lit 10006)⟩, ⟨"NFS3ERR_BADTYPE", (.lit 10007)⟩, ⟨"NFS3ERR_JUKEBOX", (.lit 10008)⟩],
   .enum "ftype3" [⟨"NF3REG", (.lit 1)⟩, ⟨"NF3DIR", (.lit 2)⟩, ⟨"NF3BLK", (.lit 3)⟩, ⟨"NF3CHR", (.lit 4)⟩, ⟨"NF3LNK", (.lit 5)⟩, ⟨"NF3SOCK", (.lit 6)⟩, ⟨"NF3FIFO", (.lit 7)⟩],
   .struct "specdata3" (decls [(.name (.typespec (.ident "uint32")) "specdata1"),
      (.name (.typespec (.ident "uint32")) "specdata2")]),
   .struct "nfs_fh3" (decls [(.name (.opaqueVarArray (some (.ident "NFS3_FHSIZE"))) "data")]),
   .struct "nfstime3" (decls [(.name (.typespec (.ident "uint32")) "seconds"),
      (.name (.typespec (.ident "uint32")) "nseconds")]),
   .struct "fattr3" (decls [(.name (.typespec (.ident "ftype3")) "ftype"),
      (.name (.typespec (.ident "mode3")) "mode"),
      (.name (.typespec (.ident "uint32")) "nlink"),
      (.name (.typespec (.ident "uid3")) "uid"),
      (.name (.typespec (.ident "gid3")) "gid"),
      (.name (.typespec (.ident "size3")) "size"),
      (.name (.typespec (.ident "size3")) "used"),
      (.name (.typespec (.ident "specdata3")) "rdev"),
      (.name (.typespec (.ident "uint64")) "fsid"),
      (.name (.typespec (.ident "fileid3")) "fileid"),
      (.name (.typespec (.ident "nfstime3")) "atime"),
      (.name (.typespec (.ident "nfstime3")) "mtime"),
      (.name (.typespec (.ident "nfstime3")) "ctime")]),
   .union "post_op_attr" (.name (.typespec .bool) "attributes_follow") (cases [((.ident "TRUE"), [], (.name (.typespec (.ident "fattr3")) "attributes")),
      ((.ident "FALSE"), [], .void)] none),
   .struct "wcc_attr" (decls [(.name (.typespec (.ident "size3")) "size"),
      (.name (.typespec (.ident "nfstime3")) "mtime"),
      (.name (.typespec (.ident "nfstime3")) "ctime")]),
   .union "pre_op_attr" (.name (.typespec .bool) "attributes_follow") (cases [((.ident "TRUE"), [], (.name (.typespec (.ident "wcc_attr")) "attributes")),
      ((.ident "FALSE"), [], .void)] none),
   .struct "wcc_data" (decls [(.name (.typespec (.ident "pre_op_attr")) "before"),
      (.name (.typespec (.ident "post_op_attr")) "after")]),
   .union "post_op_fh3" (.name (.typespec .bool) "handle_follows") (cases [((.ident "TRUE"), [], (.name (.typespec (.ident "nfs_fh3")) "handle")),
      ((.ident "FALSE"), [], .void)] none),
   .enum "time_how" [⟨"DONT_CHANGE", (.lit 0)⟩, ⟨"SET_TO_SERVER_TIME", (.lit 1)⟩, ⟨"SET_TO_CLIENT_TIME", (.lit 2)⟩],
   .union "set_mode3" (.name (.typespec .bool) "set_it") (cases [((.ident "TRUE"), [], (.name (.typespec (.ident "mode3")) "mode"))] (some .void)),
   .union "set_uid3" (.name (.typespec .bool) "set_it") (cases [((.ident "TRUE"), [], (.name (.typespec (.ident "uid3")) "uid"))] (some .void)),
   .union "set_gid3" (.name (.typespec .bool) "set_it") (cases [((.ident "TRUE"), [], (.name (.typespec (.ident "gid3")) "gid"))] (some .void)),
   .union "set_size3" (.name (.typespec .bool) "set_it") (cases [((.ident "TRUE"), [], (.name (.typespec (.ident "size3")) "size"))] (some .void)),
   .union "set_atime" (.name (.typespec (.ident "time_how")) "set_it") (cases [((.ident "SET_TO_CLIENT_TIME"), [], (.name (.typespec (.ident "nfstime3")) "atime"))] (some .void)),
   .union "set_mtime" (.name (.typespec (.ident "time_how")) "set_it") (cases [((.ident "SET_TO_CLIENT_TIME"), [], (.name (.typespec (.ident "nfstime3")) "mtime"))] (some .void)),
   .struct "sattr3" (decls [(.name (.typespec (.ident "set_mode3")) "mode"),
      (.name (.typespec (.ident "set_uid3")) "uid"),
      (.name (.typespec (.ident "set_gid3")) "gid"),
      (.name (.typespec (.ident "set_size3")) "size"),
      (.name (.typespec (.ident "set_atime")) "atime"),
      (.name (.typespec (.ident "set_mtime")) "mtime")]),
   .struct "diropargs3" (decls [(.name (.typespec (.ident "nfs_fh3")) "dir"),
      (.name (.typespec (.ident "filename3")) "name")]),
   .program ⟨"NFS_PROGRAM", [⟨"NFS_V3", [⟨"NFSPROC3_NULL", none, none, 0⟩,
      ⟨"NFSPROC3_GETATTR", (some (.ident "GETATTR3args")), (some (.ident "GETATTR3res")), 1⟩,
      ⟨"NFSPROC3_SETATTR", (some (.ident "SETATTR3args")), (some (.ident "SETATTR3res")), 2⟩,
      ⟨"NFSPROC3_LOOKUP", (some (.ident "LOOKUP3args")), (some (.ident "LOOKUP3res")), 3⟩,
      ⟨"NFSPROC3_ACCESS", (some (.ident "ACCESS3args")), (some (.ident "ACCESS3res")), 4⟩,
      ⟨"NFSPROC3_READLINK", (some (.ident "READLINK3args")), (some (.ident "READLINK3res")), 5⟩,
      ⟨"NFSPROC3_READ", (some (.ident "READ3args")), (some (.ident "READ3res")), 6⟩,
      ⟨"NFSPROC3_WRITE", (some (.ident "WRITE3args")), (some (.ident "WRITE3res")), 7⟩,
      ⟨"NFSPROC3_CREATE", (some (.ident "CREATE3args")), (some (.ident "CREATE3res")), 8⟩,
      ⟨"NFSPROC3_MKDIR", (some (.ident "MKDIR3args")), (some (.ident "MKDIR3res")), 9⟩,
      ⟨"NFSPROC3_SYMLINK", (some (.ident "SYMLINK3args")), (some (.ident "SYMLINK3res")), 10⟩,
      ⟨"NFSPROC3_MKNOD", (some (.ident "MKNOD3args")), (some (.ident "MKNOD3res")), 11⟩,
      ⟨"NFSPROC3_REMOVE", (some (.ident "REMOVE3args")), (some (.ident "REMOVE3res")), 12⟩,
      ⟨"NFSPROC3_RMDIR", (some (.ident "RMDIR3args")), (some (.ident "RMDIR3res")), 13⟩,
      ⟨"NFSPROC3_RENAME", (some (.ident "RENAME3args")), (some (.ident "RENAME3res")), 14⟩,
      ⟨"NFSPROC3_LINK", (some (.ident "LINK3args")), (some (.ident "LINK3res")), 15⟩,
      ⟨"NFSPROC3_READDIR", (some (.ident "READDIR3args")), (some (.ident "READDIR3res")), 16⟩,
      ⟨"NFSPROC3_READDIRPLUS", (some (.ident "READDIRPLUS3args")), (some (.ident "READDIRPLUS3res")), 17⟩,
      ⟨"NFSPROC3_FSSTAT", (some (.ident "FSSTAT3args")), (some (.ident "FSSTAT3res")), 18⟩,
      ⟨"NFSPROC3_FSINFO", (some (.ident "FSINFO3args")), (some (.ident "FSINFO3res")), 19⟩,
      ⟨"NFSPROC3_PATHCONF", (some (.ident "PATHCONF3args")), (some (.ident "PATHCONF3res")), 20⟩,
      ⟨"NFSPROC3_COMMIT", (some (.ident "COMMIT3args")), (some (.ident "COMMIT3res")), 21⟩], 3⟩], 100003⟩,
   .struct "GETATTR3args" (decls [(.name (.typespec (.ident "nfs_fh3")) "object")]),
   .struct "GETATTR3resok" (decls [(.name (.typespec (.ident "fattr3")) "obj_attributes")]),
   .union "GETATTR3res" (.name (.typespec (.ident "nfsstat3")) "status") (cases [((.ident "NFS3_OK"), [], (.name (.typespec (.ident "GETATTR3resok")) "resok"))] (some .void)),
   .union "sattrguard3" (.name (.typespec .bool) "check") (cases [((.ident "TRUE"), [], (.name (.typespec (.ident "nfstime3")) "obj_ctime")),
      ((.ident "FALSE"), [], .void)] none),
   .struct "SETATTR3args" (decls [(.name (.typespec (.ident "nfs_fh3")) "object"),
      (.name (.typespec (.ident "sattr3")) "new_attributes"),
      (.name (.typespec (.ident "sattrguard3")) "guard")]),
   .struct "SETATTR3resok" (decls [(.name (.typespec (.ident "wcc_data")) "obj_wcc")]),
   .struct "SETATTR3resfail" (decls [(.name (.typespec (.ident "wcc_data")) "obj_wcc")]),
   .union "SETATTR3res" (.name (.typespec (.ident "nfsstat3")) "status") (cases [((.ident "NFS3_OK"), [], (.name (.typespec (.ident "SETATTR3resok")) "resok"))] (some (.name (.typespec (.ident "SETATTR3resfail")) "resfail"))),
   .struct "LOOKUP3args" (decls [(.name (.typespec (.ident "diropargs3")) "what")]),
   .struct "LOOKUP3resok" (decls [(.name (.typespec (.ident "nfs_fh3")) "object"),
      (.name (.typespec (.ident "post_op_attr")) "obj_attributes"),
      (.name (.typespec (.ident "post_op_attr")) "dir_attributes")]),
   .struct "LOOKUP3resfail" (decls [(.name (.typespec (.ident "post_op_attr")) "dir_attributes")]),
   .union "LOOKUP3res" (.name (.typespec (.ident "nfsstat3")) "status") (cases [((.ident "NFS3_OK"), [], (.name (.typespec (.ident "LOOKUP3resok")) "resok"))] (some (.name (.typespec (.ident "LOOKUP3resfail")) "resfail"))),
   .const "ACCESS3_READ" 1,
   .const "ACCESS3_LOOKUP" 2,
   .const "ACCESS3_MODIFY" 4,
   .const "ACCESS3_EXTEND" 8,
   .const "ACCESS3_DELETE" 16,
   .const "ACCESS3_EXECUTE" 32,
   .struct "ACCESS3args" (decls [(.name (.typespec (.ident "nfs_fh3")) "object"),
      (.name (.typespec (.ident "uint32")) "access")]),
   .struct "ACCESS3resok" (decls [(.name (.typespec (.ident "post_op_attr")) "obj_attributes"),
      (.name (.typespec (.ident "uint32")) "access")]),
   .struct "ACCESS3resfail" (decls [(.name (.typespec (.ident "post_op_attr")) "obj_attributes")]),
   .union "ACCESS3res" (.name (.typespec (.ident "nfsstat3")) "status") (cases [((.ident "NFS3_OK"), [], (.name (.typespec (.ident "ACCESS3resok")) "resok"))] (some (.name (.typespec (.ident "ACCESS3resfail")) "resfail"))),
   .struct "READLINK3args" (decls [(.name (.typespec (.ident "nfs_fh3")) "symlink")]),
   .struct "READLINK3resok" (decls [(.name (.typespec (.ident "post_op_attr")) "symlink_attributes"),
      (.name (.typespec (.ident "nfspath3")) "data")]),
   .struct "READLINK3resfail" (decls [(.name (.typespec (.ident "post_op_attr")) "symlink_attributes")]),
   .union "READLINK3res" (.name (.typespec (.ident "nfsstat3")) "status") (cases [((.ident "NFS3_OK"), [], (.name (.typespec (.ident "READLINK3resok")) "resok"))] (some (.name (.typespec (.ident "READLINK3resfail")) "resfail"))),
   .struct "READ3args" (decls [(.name (.typespec (.ident "nfs_fh3")) "file"),
      (.name (.typespec (.ident "offset3")) "offset"),
      (.name (.typespec (.ident "count3")) "count")]),
   .struct "READ3resok" (decls [(.name (.typespec (.ident "post_op_attr")) "file_attributes"),
      (.name (.typespec (.ident "count3")) "count"),
      (.name (.typespec .bool) "eof"),
      (.name (.opaqueVarArray none) "data")]),
   .struct "READ3resfail" (decls [(.name (.typespec (.ident "post_op_attr")) "file_attributes")]),
   .union "READ3res" (.name (.typespec (.ident "nfsstat3")) "status") (cases [((.ident "NFS3_OK"), [], (.name (.typespec (.ident "READ3resok")) "resok"))] (some (.name (.typespec (.ident "READ3resfail")) "resfail"))),
   .enum "stable_how" [⟨"UNSTABLE", (.lit 0)⟩, ⟨"DATA_SYNC", (.lit 1)⟩, ⟨"FILE_SYNC", (.lit 2)⟩],
   .struct "WRITE3args" (decls [(.name (.typespec (.ident "nfs_fh3")) "file"),
      (.name (.typespec (.ident "offset3")) "offset"),
      (.name (.typespec (.ident "count3")) "count"),
      (.name (.typespec (.ident "stable_how")) "stable"),
      (.name (.opaqueVarArray none) "data")]),
   .struct "WRITE3resok" (decls [(.name (.typespec (.ident "wcc_data")) "file_wcc"),
      (.name (.typespec (.ident "count3")) "count"),
      (.name (.typespec (.ident "stable_how")) "committed"),
      (.name (.typespec (.ident "writeverf3")) "verf")]),
   .struct "WRITE3resfail" (decls [(.name (.typespec (.ident "wcc_data")) "file_wcc")]),
   .union "WRITE3res" (.name (.typespec (.ident "nfsstat3")) "status") (cases [((.ident "NFS3_OK"), [], (.name (.typespec (.ident "WRITE3resok")) "resok"))] (some (.name (.typespec (.ident "WRITE3resfail")) "resfail"))),
   .enum "createmode3" [⟨"UNCHECKED", (.lit 0)⟩, ⟨"GUARDED", (.lit 1)⟩, ⟨"EXCLUSIVE", (.lit 2)⟩],
   .union "createhow3" (.name (.typespec (.ident "createmode3")) "mode") (cases [((.ident "UNCHECKED"), [(.ident "GUARDED")], (.name (.typespec (.ident "sattr3")) "obj_attributes")),
      ((.ident "EXCLUSIVE"), [], (.name (.typespec (.ident "createverf3")) "verf"))] none),
   .struct "CREATE3args" (decls [(.name (.typespec (.ident "diropargs3")) "where"),
      (.name (.typespec (.ident "createhow3")) "how")]),
   .struct "CREATE3resok" (decls [(.name (.typespec (.ident "post_op_fh3")) "obj"),
      (.name (.typespec (.ident "post_op_attr")) "obj_attributes"),
      (.name (.typespec (.ident "wcc_data")) "dir_wcc")]),
   .struct "CREATE3resfail" (decls [(.name (.typespec (.ident "wcc_data")) "dir_wcc")]),
   .union "CREATE3res" (.name (.typespec (.ident "nfsstat3")) "status") (cases [((.ident "NFS3_OK"), [], (.name (.typespec (.ident "CREATE3resok")) "resok"))] (some (.name (.typespec (.ident "CREATE3resfail")) "resfail"))),
   .struct "MKDIR3args" (decls [(.name (.typespec (.ident "diropargs3")) "where"),
      (.name (.typespec (.ident "sattr3")) "attributes")]),
   .struct "MKDIR3resok" (decls [(.name (.typespec (.ident "post_op_fh3")) "obj"),
      (.name (.typespec (.ident "post_op_attr")) "obj_attributes"),
      (.name (.typespec (.ident "wcc_data")) "dir_wcc")]),
   .struct "MKDIR3resfail" (decls [(.name (.typespec (.ident "wcc_data")) "dir_wcc")]),
   .union "MKDIR3res" (.name (.typespec (.ident "nfsstat3")) "status") (cases [((.ident "NFS3_OK"), [], (.name (.typespec (.ident "MKDIR3resok")) "resok"))] (some (.name (.typespec (.ident "MKDIR3resfail")) "resfail"))),
   .struct "symlinkdata3" (decls [(.name (.typespec (.ident "sattr3")) "symlink_attributes"),
      (.name (.typespec (.ident "nfspath3")) "symlink_data")]),
   .struct "SYMLINK3args" (decls [(.name (.typespec (.ident "diropargs3")) "where"),
      (.name (.typespec (.ident "symlinkdata3")) "symlink")]),
   .struct "SYMLINK3resok" (decls [(.name (.typespec (.ident "post_op_fh3")) "obj"),
      (.name (.typespec (.ident "post_op_attr")) "obj_attributes"),
      (.name (.typespec (.ident "wcc_data")) "dir_wcc")]),
   .struct "SYMLINK3resfail" (decls [(.name (.typespec (.ident "wcc_data")) "dir_wcc")]),
   .union "SYMLINK3res" (.name (.typespec (.ident "nfsstat3")) "status") (cases [((.ident "NFS3_OK"), [], (.name (.typespec (.ident "SYMLINK3resok")) "resok"))] (some (.name (.typespec (.ident "SYMLINK3resfail")) "resfail"))),
   .struct "devicedata3" (decls [(.name (.typespec (.ident "sattr3")) "dev_attributes"),
      (.name (.typespec (.ident "specdata3")) "spec")]),
   .union "mknoddata3" (.name (.typespec (.ident "ftype3")) "ftype") (cases [((.ident "NF3CHR"), [(.ident "NF3BLK")], (.name (.typespec (.ident "devicedata3")) "device")),
      ((.ident "NF3SOCK"), [(.ident "NF3FIFO")], (.name (.typespec (.ident "sattr3")) "pipe_attributes"))] (some .void)),
   .struct "MKNOD3args" (decls [(.name (.typespec (.ident "diropargs3")) "where"),
      (.name (.typespec (.ident "mknoddata3")) "what")]),
   .struct "MKNOD3resok" (decls [(.name (.typespec (.ident "post_op_fh3")) "obj"),
      (.name (.typespec (.ident "post_op_attr")) "obj_attributes"),
      (.name (.typespec (.ident "wcc_data")) "dir_wcc")]),
   .struct "MKNOD3resfail" (decls [(.name (.typespec (.ident "wcc_data")) "dir_wcc")]),
   .union "MKNOD3res" (.name (.typespec (.ident "nfsstat3")) "status") (cases [((.ident "NFS3_OK"), [], (.name (.typespec (.ident "MKNOD3resok")) "resok"))] (some (.name (.typespec (.ident "MKNOD3resfail")) "resfail"))),
   .struct "REMOVE3args" (decls [(.name (.typespec (.ident "diropargs3")) "object")]),
   .struct "REMOVE3resok" (decls [(.name (.typespec (.ident "wcc_data")) "dir_wcc")]),
   .struct "REMOVE3resfail" (decls [(.name (.typespec (.ident "wcc_data")) "dir_wcc")]),
   .union "REMOVE3res" (.name (.typespec (.ident "nfsstat3")) "status") (cases [((.ident "NFS3_OK"), [], (.name (.typespec (.ident "REMOVE3resok")) "resok"))] (some (.name (.typespec (.ident "REMOVE3resfail")) "resfail"))),
   .struct "RMDIR3args" (decls [(.name (.typespec (.ident "diropargs3")) "object")]),
   .struct "RMDIR3resok" (decls [(.name (.typespec (.ident "wcc_data")) "dir_wcc")]),
   .struct "RMDIR3resfail" (decls [(.name (.typespec (.ident "wcc_data")) "dir_wcc")]),
   .union "RMDIR3res" (.name (.typespec (.ident "nfsstat3")) "status") (cases [((.ident "NFS3_OK"), [], (.name (.typespec (.ident "RMDIR3resok")) "resok"))] (some (.name (.typespec (.ident "RMDIR3resfail")) "resfail"))),
   .struct "RENAME3args" (decls [(.name (.typespec (.ident "diropargs3")) "from"),
      (.name (.typespec (.ident "diropargs3")) "to")]),
   .struct "RENAME3resok" (decls [(.name (.typespec (.ident "wcc_data")) "fromdir_wcc"),
      (.name (.typespec (.ident "wcc_data")) "todir_wcc")]),
   .struct "RENAME3resfail" (decls [(.name (.typespec (.ident "wcc_data")) "fromdir_wcc"),
      (.name (.typespec (.ident "wcc_data")) "todir_wcc")]),
   .union "RENAME3res" (.name (.typespec (.ident "nfsstat3")) "status") (cases [((.ident "NFS3_OK"), [], (.name (.typespec (.ident "RENAME3resok")) "resok"))] (some (.name (.typespec (.ident "RENAME3resfail")) "resfail"))),
   .struct "LINK3args" (decls [(.name (.typespec (.ident "nfs_fh3")) "file"),
      (.name (.typespec (.ident "diropargs3")) "link")]),
   .struct "LINK3resok" (decls [(.name (.typespec (.ident "post_op_attr")) "file_attributes"),
      (.name (.typespec (.ident "wcc_data")) "linkdir_wcc")]),
   .struct "LINK3resfail" (decls [(.name (.typespec (.ident "post_op_attr")) "file_attributes"),
      (.name (.typespec (.ident "wcc_data")) "linkdir_wcc")]),
   .union "LINK3res" (.name (.typespec (.ident "nfsstat3")) "status") (cases [((.ident "NFS3_OK"), [], (.name (.typespec (.ident "LINK3resok")) "resok"))] (some (.name (.typespec (.ident "LINK3resfail")) "resfail"))),
   .struct "READDIR3args" (decls [(.name (.typespec (.ident "nfs_fh3")) "dir"),
      (.name (.typespec (.ident "cookie3")) "cookie"),
      (.name (.typespec (.ident "cookieverf3")) "cookieverf"),
      (.name (.typespec (.ident "count3")) "count")]),
   .struct "entry3" (decls [(.name (.typespec (.ident "fileid3")) "fileid"),
      (.name (.typespec (.ident "filename3")) "name"),
      (.name (.typespec (.ident "cookie3")) "cookie"),
      (.name (.ptr (.ident "entry3")) "nextentry")]),
   .struct "dirlist3" (decls [(.name (.ptr (.ident "entry3")) "entries"),
      (.name (.typespec .bool) "eof")]),
   .struct "READDIR3resok" (decls [(.name (.typespec (.ident "post_op_attr")) "dir_attributes"),
      (.name (.typespec (.ident "cookieverf3")) "cookieverf"),
      (.name (.typespec (.ident "dirlist3")) "reply")]),
   .struct "READDIR3resfail" (decls [(.name (.typespec (.ident "post_op_attr")) "dir_attributes")]),
   .union "READDIR3res" (.name (.typespec (.ident "nfsstat3")) "status") (cases [((.ident "NFS3_OK"), [], (.name (.typespec (.ident "READDIR3resok")) "resok"))] (some (.name (.typespec (.ident "READDIR3resfail")) "resfail"))),
   .struct "READDIRPLUS3args" (decls [(.name (.typespec (.ident "nfs_fh3")) "dir"),
      (.name (.typespec (.ident "cookie3")) "cookie"),
      (.name (.typespec (.ident "cookieverf3")) "cookieverf"),
      (.name (.typespec (.ident "count3")) "dircount"),
      (.name (.typespec (.ident "count3")) "maxcount")]),
   .struct "entryplus3" (decls [(.name (.typespec (.ident "fileid3")) "fileid"),
      (.name (.typespec (.ident "filename3")) "name"),
      (.name (.typespec (.ident "cookie3")) "cookie"),
      (.name (.typespec (.ident "post_op_attr")) "name_attributes"),
      (.name (.typespec (.ident "post_op_fh3")) "name_handle"),
      (.name (.ptr (.ident "entryplus3")) "nextentry")]),
   .struct "dirlistplus3" (decls [(.name (.ptr (.ident "entryplus3")) "entries"),
      (.name (.typespec .bool) "eof")]),
   .struct "READDIRPLUS3resok" (decls [(.name (.typespec (.ident "post_op_attr")) "dir_attributes"),
      (.name (.typespec (.ident "cookieverf3")) "cookieverf"),
      (.name (.typespec (.ident "dirlistplus3")) "reply")]),
   .struct "READDIRPLUS3resfail" (decls [(.name (.typespec (.ident "post_op_attr")) "dir_attributes")]),
   .union "READDIRPLUS3res" (.name (.typespec (.ident "nfsstat3")) "status") (cases [((.ident "NFS3_OK"), [], (.name (.typespec (.ident "READDIRPLUS3resok")) "resok"))] (some (.name (.typespec (.ident "READDIRPLUS3resfail")) "resfail"))),
   .struct "FSSTAT3args" (decls [(.name (.typespec (.ident "nfs_fh3")) "fsroot")]),
   .struct "FSSTAT3resok" (decls [(.name (.typespec (.ident "post_op_attr")) "obj_attributes"),
      (.name (.typespec (.ident "size3")) "tbytes"),
      (.name (.typespec (.ident "size3")) "fbytes"),
      (.name (.typespec (.ident "size3")) "abytes"),
      (.name (.typespec (.ident "size3")) "tfiles"),
      (.name (.typespec (.ident "size3")) "ffiles"),
      (.name (.typespec (.ident "size3")) "afiles"),
      (.name (.typespec (.ident "uint32")) "invarsec")]),
   .struct "FSSTAT3resfail" (decls [(.name (.typespec (.ident "post_op_attr")) "obj_attributes")]),
   .union "FSSTAT3res" (.name (.typespec (.ident "nfsstat3")) "status") (cases [((.ident "NFS3_OK"), [], (.name (.typespec (.ident "FSSTAT3resok")) "resok"))] (some (.name (.typespec (.ident "FSSTAT3resfail")) "resfail"))),
   .const "FSF3_LINK" 1,
   .const "FSF3_SYMLINK" 2,
   .const "FSF3_HOMOGENEOUS" 8,
   .const "FSF3_CANSETTIME" 16,
   .struct "FSINFO3args" (decls [(.name (.typespec (.ident "nfs_fh3")) "fsroot")]),
   .struct "FSINFO3resok" (decls [(.name (.typespec (.ident "post_op_attr")) "obj_attributes"),
      (.name (.typespec (.ident "uint32")) "rtmax"),
      (.name (.typespec (.ident "uint32")) "rtpref"),
      (.name (.typespec (.ident "uint32")) "rtmult"),
      (.name (.typespec (.ident "uint32")) "wtmax"),
      (.name (.typespec (.ident "uint32")) "wtpref"),
      (.name (.typespec (.ident "uint32")) "wtmult"),
      (.name (.typespec (.ident "uint32")) "dtpref"),
      (.name (.typespec (.ident "size3")) "maxfilesize"),
      (.name (.typespec (.ident "nfstime3")) "time_delta"),
      (.name (.typespec (.ident "uint32")) "properties")]),
   .struct "FSINFO3resfail" (decls [(.name (.typespec (.ident "post_op_attr")) "obj_attributes")]),
   .union "FSINFO3res" (.name (.typespec (.ident "nfsstat3")) "status") (cases [((.ident "NFS3_OK"), [], (.name (.typespec (.ident "FSINFO3resok")) "resok"))] (some (.name (.typespec (.ident "FSINFO3resfail")) "resfail"))),
   .struct "PATHCONF3args" (decls [(.name (.typespec (.ident "nfs_fh3")) "object")]),
   .struct "PATHCONF3resok" (decls [(.name (.typespec (.ident "post_op_attr")) "obj_attributes"),
      (.name (.typespec (.ident "uint32")) "linkmax"),
      (.name (.typespec (.ident "uint32")) "name_max"),
      (.name (.typespec .bool) "no_trunc"),
      (.name (.typespec .bool) "chown_restricted"),
      (.name (.typespec .bool) "case_insensitive"),
      (.name (.typespec .bool) "case_preserving")]),
   .struct "PATHCONF3resfail" (decls [(.name (.typespec (.ident "post_op_attr")) "obj_attributes")]),
   .union "PATHCONF3res" (.name (.typespec (.ident "nfsstat3")) "status") (cases [((.ident "NFS3_OK"), [], (.name (.typespec (.ident "PATHCONF3resok")) "resok"))] (some (.name (.typespec (.ident "PATHCONF3resfail")) "resfail"))),
   .struct "COMMIT3args" (decls [(.name (.typespec (.ident "nfs_fh3")) "file"),
      (.name (.typespec (.ident "offset3")) "offset"),
      (.name (.typespec (.ident "count3")) "count")]),
   .struct "COMMIT3resok" (decls [(.name (.typespec (.ident "wcc_data")) "file_wcc"),
      (.name (.typespec (.ident "writeverf3")) "verf")]),
   .struct "COMMIT3resfail" (decls [(.name (.typespec (.ident "wcc_data")) "file_wcc")]),
   .union "COMMIT3res" (.name (.typespec (.ident "nfsstat3")) "status") (cases [((.ident "NFS3_OK"), [], (.name (.typespec (.ident "COMMIT3resok")) "resok"))] (some (.name (.typespec (.ident "COMMIT3resfail")) "resfail"))),
   .const "MNTPATHLEN3" 1024,
   .const "MNTNAMLEN3" 255,
   .const "FHSIZE3" 64,
   .typedef (.name (.opaqueVarArray (some (.ident "FHSIZE3"))) "fhandle3"),
   .typedef (.name (.string (some (.ident "MNTPATHLEN3"))) "dirpath3"),
   .typedef (.name (.string (some (.ident "MNTNAMLEN3"))) "name3"),
   .enum "mountstat3" [⟨"MNT3_OK", (.lit 0)⟩, ⟨"MNT3ERR_PERM", (.lit 1)⟩, ⟨"MNT3ERR_NOENT", (.lit 2)⟩, ⟨"MNT3ERR_IO", (.lit 5)⟩, ⟨"MNT3ERR_ACCES", (.lit 13)⟩, ⟨"MNT3ERR_NOTDIR", (.lit 20)⟩, ⟨"MNT3ERR_INVAL", (.lit 22)⟩, ⟨"MNT3ERR_NAMETOOLONG", (.lit 63)⟩, ⟨"MNT3ERR_NOTSUPP", (.lit 10004)⟩, ⟨"MNT3ERR_SERVERFAULT", (.lit 10006)⟩],
   .program ⟨"MOUNT_PROGRAM", [⟨"MOUNT_V3", [⟨"MOUNTPROC3_NULL", none, none, 0⟩,
      ⟨"MOUNTPROC3_MNT", (some (.ident "dirpath3")), (some (.ident "mountres3")), 1⟩,
      ⟨"MOUNTPROC3_DUMP", none, (some (.ident "mountopt3")), 2⟩,
      ⟨"MOUNTPROC3_UMNT", (some (.ident "dirpath3")), none, 3⟩,
      ⟨"MOUNTPROC3_UMNTALL", none, none, 4⟩,
      ⟨"MOUNTPROC3_EXPORT", none, (some (.ident "exportsopt3")), 5⟩], 3⟩], 100005⟩,
   .struct "mountres3_ok" (decls [(.name (.typespec (.ident "fhandle3")) "fhandle"),
      (.name (.varArray (.int true) none) "auth_flavors")]),
   .union "mountres3" (.name (.typespec (.ident "mountstat3")) "fhs_status") (cases [((.ident "MNT3_OK"), [], (.name (.typespec (.ident "mountres3_ok")) "mountinfo"))] (some .void)),
   .struct "mount3" (decls [(.name (.typespec (.ident "name3")) "ml_hostname"),
      (.name (.typespec (.ident "dirpath3")) "ml_directory"),
      (.name (.ptr (.ident "mount3")) "ml_next")]),
   .typedef (.name (.ptr (.ident "mount3")) "mountopt3"),
   .struct "groups3" (decls [(.name (.typespec (.ident "name3")) "gr_name"),
      (.name (.ptr (.ident "groups3")) "gr_next")]),
   .struct "exports3" (decls [(.name (.typespec (.ident "dirpath3")) "ex_dir"),
      (.name (.ptr (.ident "groups3")) "ex_groups"),
      (.name (.ptr (.ident "exports3")) "ex_next")]),
   .typedef (.name (.ptr (.ident "exports3")) "exportsopt3")]

/-- the constants of /repo/rfc1813/types.go -/
def goConsts : List GoConst :=
  [⟨"PROGRAM", "uint32", (.lit 100003)⟩,
   ⟨"VERSION", "uint32", (.lit 3)⟩,
   ⟨"NFS3_FHSIZE", "uint32", (.lit 64)⟩,
   ⟨"NFS3_COOKIEVERFSIZE", "uint32", (.lit 8)⟩,
   ⟨"NFS3_CREATEVERFSIZE", "uint32", (.lit 8)⟩,
   ⟨"NFS3_WRITEVERFSIZE", "uint32", (.lit 8)⟩,
   ⟨"NFS3_OK", "Nfsstat3", (.lit 0)⟩,
   ⟨"NFS3ERR_PERM", "Nfsstat3", (.lit 1)⟩,
   ⟨"NFS3ERR_NOENT", "Nfsstat3", (.lit 2)⟩,
   ⟨"NFS3ERR_IO", "Nfsstat3", (.lit 5)⟩,
   ⟨"NFS3ERR_NXIO", "Nfsstat3", (.lit 6)⟩,
   ⟨"NFS3ERR_ACCES", "Nfsstat3", (.lit 13)⟩,
   ⟨"NFS3ERR_EXIST", "Nfsstat3", (.lit 17)⟩,
   ⟨"NFS3ERR_XDEV", "Nfsstat3", (.lit 18)⟩,
   ⟨"NFS3ERR_NODEV", "Nfsstat3", (.lit 19)⟩,
   ⟨"NFS3ERR_NOTDIR", "Nfsstat3", (.lit 20)⟩,
   ⟨"NFS3ERR_ISDIR", "Nfsstat3", (.lit 21)⟩,
   ⟨"NFS3ERR_INVAL", "Nfsstat3", (.lit 22)⟩,
   ⟨"NFS3ERR_FBIG", "Nfsstat3", (.lit 27)⟩,
   ⟨"NFS3ERR_NOSPC", "Nfsstat3", (.lit 28)⟩,
   ⟨"NFS3ERR_ROFS", "Nfsstat3", (.lit 30)⟩,
   ⟨"NFS3ERR_MLINK", "Nfsstat3", (.lit 31)⟩,
   ⟨"NFS3ERR_NAMETOOLONG", "Nfsstat3", (.lit 63)⟩,
   ⟨"NFS3ERR_NOTEMPTY", "Nfsstat3", (.lit 66)⟩,
   ⟨"NFS3ERR_DQUOT", "Nfsstat3", (.lit 69)⟩,
   ⟨"NFS3ERR_STALE", "Nfsstat3", (.lit 70)⟩,
   ⟨"NFS3ERR_REMOTE", "Nfsstat3", (.lit 71)⟩,
   ⟨"NFS3ERR_BADHANDLE", "Nfsstat3", (.lit 10001)⟩,
   ⟨"NFS3ERR_NOT_SYNC", "Nfsstat3", (.lit 10002)⟩,
   ⟨"NFS3ERR_BAD_COOKIE", "Nfsstat3", (.lit 10003)⟩,
   ⟨"NFS3ERR_NOTSUPP", "Nfsstat3", (.lit 10004)⟩,
   ⟨"NFS3ERR_TOOSMALL", "Nfsstat3", (.lit 10005)⟩,
   ⟨"NFS3ERR_SERVERFAULT", "Nfsstat3", (.lit 10006)⟩,
   ⟨"NFS3ERR_BADTYPE", "Nfsstat3", (.lit 10007)⟩,
   ⟨"NFS3ERR_JUKEBOX", "Nfsstat3", (.lit 10008)⟩,
   ⟨"NF3REG", "Ftype3", (.lit 1)⟩,
   ⟨"NF3DIR", "Ftype3", (.lit 2)⟩,
   ⟨"NF3BLK", "Ftype3", (.lit 3)⟩,
   ⟨"NF3CHR", "Ftype3", (.lit 4)⟩,
   ⟨"NF3LNK", "Ftype3", (.lit 5)⟩,
   ⟨"NF3SOCK", "Ftype3", (.lit 6)⟩,
   ⟨"NF3FIFO", "Ftype3", (.lit 7)⟩,
   ⟨"DONT_CHANGE", "Time_how", (.lit 0)⟩,
   ⟨"SET_TO_SERVER_TIME", "Time_how", (.lit 1)⟩,
   ⟨"SET_TO_CLIENT_TIME", "Time_how", (.lit 2)⟩,
   ⟨"NFS_PROGRAM", "uint32", (.lit 100003)⟩,
   ⟨"NFS_V3", "uint32", (.lit 3)⟩,
   ⟨"NFSPROC3_NULL", "uint32", (.lit 0)⟩,
   ⟨"NFSPROC3_GETATTR", "uint32", (.lit 1)⟩,
   ⟨"NFSPROC3_SETATTR", "uint32", (.lit 2)⟩,
   ⟨"NFSPROC3_LOOKUP", "uint32", (.lit 3)⟩,
   ⟨"NFSPROC3_ACCESS", "uint32", (.lit 4)⟩,
   ⟨"NFSPROC3_READLINK", "uint32", (.lit 5)⟩,
   ⟨"NFSPROC3_READ", "uint32", (.lit 6)⟩,
   ⟨"NFSPROC3_WRITE", "uint32", (.lit 7)⟩,
   ⟨"NFSPROC3_CREATE", "uint32", (.lit 8)⟩,
   ⟨"NFSPROC3_MKDIR", "uint32", (.lit 9)⟩,
   ⟨"NFSPROC3_SYMLINK", "uint32", (.lit 10)⟩,
   ⟨"NFSPROC3_MKNOD", "uint32", (.lit 11)⟩,
   ⟨"NFSPROC3_REMOVE", "uint32", (.lit 12)⟩,
   ⟨"NFSPROC3_RMDIR", "uint32", (.lit 13)⟩,
   ⟨"NFSPROC3_RENAME", "uint32", (.lit 14)⟩,
   ⟨"NFSPROC3_LINK", "uint32", (.lit 15)⟩,
   ⟨"NFSPROC3_READDIR", "uint32", (.lit 16)⟩,
   ⟨"NFSPROC3_READDIRPLUS", "uint32", (.lit 17)⟩,
   ⟨"NFSPROC3_FSSTAT", "uint32", (.lit 18)⟩,
   ⟨"NFSPROC3_FSINFO", "uint32", (.lit 19)⟩,
   ⟨"NFSPROC3_PATHCONF", "uint32", (.lit 20)⟩,
   ⟨"NFSPROC3_COMMIT", "uint32", (.lit 21)⟩,
   ⟨"ACCESS3_READ", "uint32", (.lit 1)⟩,
   ⟨"ACCESS3_LOOKUP", "uint32", (.lit 2)⟩,
   ⟨"ACCESS3_MODIFY", "uint32", (.lit 4)⟩,
   ⟨"ACCESS3_EXTEND", "uint32", (.lit 8)⟩,
   ⟨"ACCESS3_DELETE", "uint32", (.lit 16)⟩,
   ⟨"ACCESS3_EXECUTE", "uint32", (.lit 32)⟩,
   ⟨"UNSTABLE", "Stable_how", (.lit 0)⟩,
   ⟨"DATA_SYNC", "Stable_how", (.lit 1)⟩,
   ⟨"FILE_SYNC", "Stable_how", (.lit 2)⟩,
   ⟨"UNCHECKED", "Createmode3", (.lit 0)⟩,
   ⟨"GUARDED", "Createmode3", (.lit 1)⟩,
   ⟨"EXCLUSIVE", "Createmode3", (.lit 2)⟩,
   ⟨"FSF3_LINK", "uint32", (.lit 1)⟩,
   ⟨"FSF3_SYMLINK", "uint32", (.lit 2)⟩,
   ⟨"FSF3_HOMOGENEOUS", "uint32", (.lit 8)⟩,
   ⟨"FSF3_CANSETTIME", "uint32", (.lit 16)⟩,
   ⟨"MNTPATHLEN3", "uint32", (.lit 1024)⟩,
   ⟨"MNTNAMLEN3", "uint32", (.lit 255)⟩,
   ⟨"FHSIZE3", "uint32", (.lit 64)⟩,
   ⟨"MNT3_OK", "Mountstat3", (.lit 0)⟩,
   ⟨"MNT3ERR_PERM", "Mountstat3", (.lit 1)⟩,
   ⟨"MNT3ERR_NOENT", "Mountstat3", (.lit 2)⟩,
   ⟨"MNT3ERR_IO", "Mountstat3", (.lit 5)⟩,
   ⟨"MNT3ERR_ACCES", "Mountstat3", (.lit 13)⟩,
   ⟨"MNT3ERR_NOTDIR", "Mountstat3", (.lit 20)⟩,
   ⟨"MNT3ERR_INVAL", "Mountstat3", (.lit 22)⟩,
   ⟨"MNT3ERR_NAMETOOLONG", "Mountstat3", (.lit 63)⟩,
   ⟨"MNT3ERR_NOTSUPP", "Mountstat3", (.lit 10004)⟩,
   ⟨"MNT3ERR_SERVERFAULT", "Mountstat3", (.lit 10006)⟩,
   ⟨"MOUNT_PROGRAM", "uint32", (.lit 100005)⟩,
   ⟨"MOUNT_V3", "uint32", (.lit 3)⟩,
   ⟨"MOUNTPROC3_NULL", "uint32", (.lit 0)⟩,
   ⟨"MOUNTPROC3_MNT", "uint32", (.lit 1)⟩,
   ⟨"MOUNTPROC3_DUMP", "uint32", (.lit 2)⟩,
   ⟨"MOUNTPROC3_UMNT", "uint32", (.lit 3)⟩,
   ⟨"MOUNTPROC3_UMNTALL", "uint32", (.lit 4)⟩,
   ⟨"MOUNTPROC3_EXPORT", "uint32", (.lit 5)⟩]

/-- the types of /repo/rfc1813/types.go -/
def goTypes : List (Ident × GoType) :=
  [("Uint64", .uint64),
   ("Uint32", .uint32),
   ("Filename3", .string),
   ("Nfspath3", .string),
   ("Fileid3", (.named "Uint64")),
   ("Cookie3", (.named "Uint64")),
   ("Cookieverf3", (.byteArray (.ident "NFS3_COOKIEVERFSIZE"))),
   ("Createverf3", (.byteArray (.ident "NFS3_CREATEVERFSIZE"))),
   ("Writeverf3", (.byteArray (.ident "NFS3_WRITEVERFSIZE"))),
   ("Uid3", (.named "Uint32")),
   ("Gid3", (.named "Uint32")),
   ("Size3", (.named "Uint64")),
   ("Offset3", (.named "Uint64")),
   ("Mode3", (.named "Uint32")),
   ("Count3", (.named "Uint32")),
   ("Nfsstat3", .uint32),
   ("Ftype3", .uint32),
   ("Specdata3", (.struct (fields [("Specdata1", (.named "Uint32")),
      ("Specdata2", (.named "Uint32"))]))),
   ("Nfs_fh3", (.struct (fields [("Data", .bytes)]))),
   ("Nfstime3", (.struct (fields [("Seconds", (.named "Uint32")),
      ("Nseconds", (.named "Uint32"))]))),
   ("Fattr3", (.struct (fields [("Ftype", (.named "Ftype3")),
      ("Mode", (.named "Mode3")),
      ("Nlink", (.named "Uint32")),
      ("Uid", (.named "Uid3")),
      ("Gid", (.named "Gid3")),
      ("Size", (.named "Size3")),
      ("Used", (.named "Size3")),
      ("Rdev", (.named "Specdata3")),
      ("Fsid", (.named "Uint64")),
      ("Fileid", (.named "Fileid3")),
      ("Atime", (.named "Nfstime3")),
      ("Mtime", (.named "Nfstime3")),
      ("Ctime", (.named "Nfstime3"))]))),
   ("Post_op_attr", (.struct (fields [("Attributes_follow", .bool),
      ("Attributes", (.named "Fattr3"))]))),
   ("Wcc_attr", (.struct (fields [("Size", (.named "Size3")),
      ("Mtime", (.named "Nfstime3")),
      ("Ctime", (.named "Nfstime3"))]))),
   ("Pre_op_attr", (.struct (fields [("Attributes_follow", .bool),
      ("Attributes", (.named "Wcc_attr"))]))),
   ("Wcc_data", (.struct (fields [("Before", (.named "Pre_op_attr")),
      ("After", (.named "Post_op_attr"))]))),
   ("Post_op_fh3", (.struct (fields [("Handle_follows", .bool),
      ("Handle", (.named "Nfs_fh3"))]))),
   ("Time_how", .uint32),
   ("Set_mode3", (.struct (fields [("Set_it", .bool),
      ("Mode", (.named "Mode3"))]))),
   ("Set_uid3", (.struct (fields [("Set_it", .bool),
      ("Uid", (.named "Uid3"))]))),
   ("Set_gid3", (.struct (fields [("Set_it", .bool),
      ("Gid", (.named "Gid3"))]))),
   ("Set_size3", (.struct (fields [("Set_it", .bool),
      ("Size", (.named "Size3"))]))),
   ("Set_atime", (.struct (fields [("Set_it", (.named "Time_how")),
      ("Atime", (.named "Nfstime3"))]))),
   ("Set_mtime", (.struct (fields [("Set_it", (.named "Time_how")),
      ("Mtime", (.named "Nfstime3"))]))),
   ("Sattr3", (.struct (fields [("Mode", (.named "Set_mode3")),
      ("Uid", (.named "Set_uid3")),
      ("Gid", (.named "Set_gid3")),
      ("Size", (.named "Set_size3")),
      ("Atime", (.named "Set_atime")),
      ("Mtime", (.named "Set_mtime"))]))),
   ("Diropargs3", (.struct (fields [("Dir", (.named "Nfs_fh3")),
      ("Name", (.named "Filename3"))]))),
   ("GETATTR3args", (.struct (fields [("Object", (.named "Nfs_fh3"))]))),
   ("GETATTR3resok", (.struct (fields [("Obj_attributes", (.named "Fattr3"))]))),
   ("GETATTR3res", (.struct (fields [("Status", (.named "Nfsstat3")),
      ("Resok", (.named "GETATTR3resok"))]))),
   ("Sattrguard3", (.struct (fields [("Check", .bool),
      ("Obj_ctime", (.named "Nfstime3"))]))),
   ("SETATTR3args", (.struct (fields [("Object", (.named "Nfs_fh3")),
      ("New_attributes", (.named "Sattr3")),
      ("Guard", (.named "Sattrguard3"))]))),
   ("SETATTR3resok", (.struct (fields [("Obj_wcc", (.named "Wcc_data"))]))),
   ("SETATTR3resfail", (.struct (fields [("Obj_wcc", (.named "Wcc_data"))]))),
   ("SETATTR3res", (.struct (fields [("Status", (.named "Nfsstat3")),
      ("Resok", (.named "SETATTR3resok")),
      ("Resfail", (.named "SETATTR3resfail"))]))),
   ("LOOKUP3args", (.struct (fields [("What", (.named "Diropargs3"))]))),
   ("LOOKUP3resok", (.struct (fields [("Object", (.named "Nfs_fh3")),
      ("Obj_attributes", (.named "Post_op_attr")),
      ("Dir_attributes", (.named "Post_op_attr"))]))),
   ("LOOKUP3resfail", (.struct (fields [("Dir_attributes", (.named "Post_op_attr"))]))),
   ("LOOKUP3res", (.struct (fields [("Status", (.named "Nfsstat3")),
      ("Resok", (.named "LOOKUP3resok")),
      ("Resfail", (.named "LOOKUP3resfail"))]))),
   ("ACCESS3args", (.struct (fields [("Object", (.named "Nfs_fh3")),
      ("Access", (.named "Uint32"))]))),
   ("ACCESS3resok", (.struct (fields [("Obj_attributes", (.named "Post_op_attr")),
      ("Access", (.named "Uint32"))]))),
   ("ACCESS3resfail", (.struct (fields [("Obj_attributes", (.named "Post_op_attr"))]))),
   ("ACCESS3res", (.struct (fields [("Status", (.named "Nfsstat3")),
      ("Resok", (.named "ACCESS3resok")),
      ("Resfail", (.named "ACCESS3resfail"))]))),
   ("READLINK3args", (.struct (fields [("Symlink", (.named "Nfs_fh3"))]))),
   ("READLINK3resok", (.struct (fields [("Symlink_attributes", (.named "Post_op_attr")),
      ("Data", (.named "Nfspath3"))]))),
   ("READLINK3resfail", (.struct (fields [("Symlink_attributes", (.named "Post_op_attr"))]))),
   ("READLINK3res", (.struct (fields [("Status", (.named "Nfsstat3")),
      ("Resok", (.named "READLINK3resok")),
      ("Resfail", (.named "READLINK3resfail"))]))),
   ("READ3args", (.struct (fields [("File", (.named "Nfs_fh3")),
      ("Offset", (.named "Offset3")),
      ("Count", (.named "Count3"))]))),
   ("READ3resok", (.struct (fields [("File_attributes", (.named "Post_op_attr")),
      ("Count", (.named "Count3")),
      ("Eof", .bool),
      ("Data", .bytes)]))),
   ("READ3resfail", (.struct (fields [("File_attributes", (.named "Post_op_attr"))]))),
   ("READ3res", (.struct (fields [("Status", (.named "Nfsstat3")),
      ("Resok", (.named "READ3resok")),
      ("Resfail", (.named "READ3resfail"))]))),
   ("Stable_how", .uint32),
   ("WRITE3args", (.struct (fields [("File", (.named "Nfs_fh3")),
      ("Offset", (.named "Offset3")),
      ("Count", (.named "Count3")),
      ("Stable", (.named "Stable_how")),
      ("Data", .bytes)]))),
   ("WRITE3resok", (.struct (fields [("File_wcc", (.named "Wcc_data")),
      ("Count", (.named "Count3")),
      ("Committed", (.named "Stable_how")),
      ("Verf", (.named "Writeverf3"))]))),
   ("WRITE3resfail", (.struct (fields [("File_wcc", (.named "Wcc_data"))]))),
   ("WRITE3res", (.struct (fields [("Status", (.named "Nfsstat3")),
      ("Resok", (.named "WRITE3resok")),
      ("Resfail", (.named "WRITE3resfail"))]))),
   ("Createmode3", .uint32),
   ("Createhow3", (.struct (fields [("Mode", (.named "Createmode3")),
      ("Obj_attributes", (.named "Sattr3")),
      ("Verf", (.named "Createverf3"))]))),
   ("CREATE3args", (.struct (fields [("Where", (.named "Diropargs3")),
      ("How", (.named "Createhow3"))]))),
   ("CREATE3resok", (.struct (fields [("Obj", (.named "Post_op_fh3")),
      ("Obj_attributes", (.named "Post_op_attr")),
      ("Dir_wcc", (.named "Wcc_data"))]))),
   ("CREATE3resfail", (.struct (fields [("Dir_wcc", (.named "Wcc_data"))]))),
   ("CREATE3res", (.struct (fields [("Status", (.named "Nfsstat3")),
      ("Resok", (.named "CREATE3resok")),
      ("Resfail", (.named "CREATE3resfail"))]))),
   ("MKDIR3args", (.struct (fields [("Where", (.named "Diropargs3")),
      ("Attributes", (.named "Sattr3"))]))),
   ("MKDIR3resok", (.struct (fields [("Obj", (.named "Post_op_fh3")),
      ("Obj_attributes", (.named "Post_op_attr")),
      ("Dir_wcc", (.named "Wcc_data"))]))),
   ("MKDIR3resfail", (.struct (fields [("Dir_wcc", (.named "Wcc_data"))]))),
   ("MKDIR3res", (.struct (fields [("Status", (.named "Nfsstat3")),
      ("Resok", (.named "MKDIR3resok")),
      ("Resfail", (.named "MKDIR3resfail"))]))),
   ("Symlinkdata3", (.struct (fields [("Symlink_attributes", (.named "Sattr3")),
      ("Symlink_data", (.named "Nfspath3"))]))),
   ("SYMLINK3args", (.struct (fields [("Where", (.named "Diropargs3")),
      ("Symlink", (.named "Symlinkdata3"))]))),
   ("SYMLINK3resok", (.struct (fields [("Obj", (.named "Post_op_fh3")),
      ("Obj_attributes", (.named "Post_op_attr")),
      ("Dir_wcc", (.named "Wcc_data"))]))),
   ("SYMLINK3resfail", (.struct (fields [("Dir_wcc", (.named "Wcc_data"))]))),
   ("SYMLINK3res", (.struct (fields [("Status", (.named "Nfsstat3")),
      ("Resok", (.named "SYMLINK3resok")),
      ("Resfail", (.named "SYMLINK3resfail"))]))),
   ("Devicedata3", (.struct (fields [("Dev_attributes", (.named "Sattr3")),
      ("Spec", (.named "Specdata3"))]))),
   ("Mknoddata3", (.struct (fields [("Ftype", (.named "Ftype3")),
      ("Device", (.named "Devicedata3")),
      ("Pipe_attributes", (.named "Sattr3"))]))),
   ("MKNOD3args", (.struct (fields [("Where", (.named "Diropargs3")),
      ("What", (.named "Mknoddata3"))]))),
   ("MKNOD3resok", (.struct (fields [("Obj", (.named "Post_op_fh3")),
      ("Obj_attributes", (.named "Post_op_attr")),
      ("Dir_wcc", (.named "Wcc_data"))]))),
   ("MKNOD3resfail", (.struct (fields [("Dir_wcc", (.named "Wcc_data"))]))),
   ("MKNOD3res", (.struct (fields [("Status", (.named "Nfsstat3")),
      ("Resok", (.named "MKNOD3resok")),
      ("Resfail", (.named "MKNOD3resfail"))]))),
   ("REMOVE3args", (.struct (fields [("Object", (.named "Diropargs3"))]))),
   ("REMOVE3resok", (.struct (fields [("Dir_wcc", (.named "Wcc_data"))]))),
   ("REMOVE3resfail", (.struct (fields [("Dir_wcc", (.named "Wcc_data"))]))),
   ("REMOVE3res", (.struct (fields [("Status", (.named "Nfsstat3")),
      ("Resok", (.named "REMOVE3resok")),
      ("Resfail", (.named "REMOVE3resfail"))]))),
   ("RMDIR3args", (.struct (fields [("Object", (.named "Diropargs3"))]))),
   ("RMDIR3resok", (.struct (fields [("Dir_wcc", (.named "Wcc_data"))]))),
   ("RMDIR3resfail", (.struct (fields [("Dir_wcc", (.named "Wcc_data"))]))),
   ("RMDIR3res", (.struct (fields [("Status", (.named "Nfsstat3")),
      ("Resok", (.named "RMDIR3resok")),
      ("Resfail", (.named "RMDIR3resfail"))]))),
   ("RENAME3args", (.struct (fields [("From", (.named "Diropargs3")),
      ("To", (.named "Diropargs3"))]))),
   ("RENAME3resok", (.struct (fields [("Fromdir_wcc", (.named "Wcc_data")),
      ("Todir_wcc", (.named "Wcc_data"))]))),
   ("RENAME3resfail", (.struct (fields [("Fromdir_wcc", (.named "Wcc_data")),
      ("Todir_wcc", (.named "Wcc_data"))]))),
   ("RENAME3res", (.struct (fields [("Status", (.named "Nfsstat3")),
      ("Resok", (.named "RENAME3resok")),
      ("Resfail", (.named "RENAME3resfail"))]))),
   ("LINK3args", (.struct (fields [("File", (.named "Nfs_fh3")),
      ("Link", (.named "Diropargs3"))]))),
   ("LINK3resok", (.struct (fields [("File_attributes", (.named "Post_op_attr")),
      ("Linkdir_wcc", (.named "Wcc_data"))]))),
   ("LINK3resfail", (.struct (fields [("File_attributes", (.named "Post_op_attr")),
      ("Linkdir_wcc", (.named "Wcc_data"))]))),
   ("LINK3res", (.struct (fields [("Status", (.named "Nfsstat3")),
      ("Resok", (.named "LINK3resok")),
      ("Resfail", (.named "LINK3resfail"))]))),
   ("READDIR3args", (.struct (fields [("Dir", (.named "Nfs_fh3")),
      ("Cookie", (.named "Cookie3")),
      ("Cookieverf", (.named "Cookieverf3")),
      ("Count", (.named "Count3"))]))),
   ("Entry3", (.struct (fields [("Fileid", (.named "Fileid3")),
      ("Name", (.named "Filename3")),
      ("Cookie", (.named "Cookie3")),
      ("Nextentry", (.ptr (.named "Entry3")))]))),
   ("Dirlist3", (.struct (fields [("Entries", (.ptr (.named "Entry3"))),
      ("Eof", .bool)]))),
   ("READDIR3resok", (.struct (fields [("Dir_attributes", (.named "Post_op_attr")),
      ("Cookieverf", (.named "Cookieverf3")),
      ("Reply", (.named "Dirlist3"))]))),
   ("READDIR3resfail", (.struct (fields [("Dir_attributes", (.named "Post_op_attr"))]))),
   ("READDIR3res", (.struct (fields [("Status", (.named "Nfsstat3")),
      ("Resok", (.named "READDIR3resok")),
      ("Resfail", (.named "READDIR3resfail"))]))),
   ("READDIRPLUS3args", (.struct (fields [("Dir", (.named "Nfs_fh3")),
      ("Cookie", (.named "Cookie3")),
      ("Cookieverf", (.named "Cookieverf3")),
      ("Dircount", (.named "Count3")),
      ("Maxcount", (.named "Count3"))]))),
   ("Entryplus3", (.struct (fields [("Fileid", (.named "Fileid3")),
      ("Name", (.named "Filename3")),
      ("Cookie", (.named "Cookie3")),
      ("Name_attributes", (.named "Post_op_attr")),
      ("Name_handle", (.named "Post_op_fh3")),
      ("Nextentry", (.ptr (.named "Entryplus3")))]))),
   ("Dirlistplus3", (.struct (fields [("Entries", (.ptr (.named "Entryplus3"))),
      ("Eof", .bool)]))),
   ("READDIRPLUS3resok", (.struct (fields [("Dir_attributes", (.named "Post_op_attr")),
      ("Cookieverf", (.named "Cookieverf3")),
      ("Reply", (.named "Dirlistplus3"))]))),
   ("READDIRPLUS3resfail", (.struct (fields [("Dir_attributes", (.named "Post_op_attr"))]))),
   ("READDIRPLUS3res", (.struct (fields [("Status", (.named "Nfsstat3")),
      ("Resok", (.named "READDIRPLUS3resok")),
      ("Resfail", (.named "READDIRPLUS3resfail"))]))),
   ("FSSTAT3args", (.struct (fields [("Fsroot", (.named "Nfs_fh3"))]))),
   ("FSSTAT3resok", (.struct (fields [("Obj_attributes", (.named "Post_op_attr")),
      ("Tbytes", (.named "Size3")),
      ("Fbytes", (.named "Size3")),
      ("Abytes", (.named "Size3")),
      ("Tfiles", (.named "Size3")),
      ("Ffiles", (.named "Size3")),
      ("Afiles", (.named "Size3")),
      ("Invarsec", (.named "Uint32"))]))),
   ("FSSTAT3resfail", (.struct (fields [("Obj_attributes", (.named "Post_op_attr"))]))),
   ("FSSTAT3res", (.struct (fields [("Status", (.named "Nfsstat3")),
      ("Resok", (.named "FSSTAT3resok")),
      ("Resfail", (.named "FSSTAT3resfail"))]))),
   ("FSINFO3args", (.struct (fields [("Fsroot", (.named "Nfs_fh3"))]))),
   ("FSINFO3resok", (.struct (fields [("Obj_attributes", (.named "Post_op_attr")),
      ("Rtmax", (.named "Uint32")),
      ("Rtpref", (.named "Uint32")),
      ("Rtmult", (.named "Uint32")),
      ("Wtmax", (.named "Uint32")),
      ("Wtpref", (.named "Uint32")),
      ("Wtmult", (.named "Uint32")),
      ("Dtpref", (.named "Uint32")),
      ("Maxfilesize", (.named "Size3")),
      ("Time_delta", (.named "Nfstime3")),
      ("Properties", (.named "Uint32"))]))),
   ("FSINFO3resfail", (.struct (fields [("Obj_attributes", (.named "Post_op_attr"))]))),
   ("FSINFO3res", (.struct (fields [("Status", (.named "Nfsstat3")),
      ("Resok", (.named "FSINFO3resok")),
      ("Resfail", (.named "FSINFO3resfail"))]))),
   ("PATHCONF3args", (.struct (fields [("Object", (.named "Nfs_fh3"))]))),
   ("PATHCONF3resok", (.struct (fields [("Obj_attributes", (.named "Post_op_attr")),
      ("Linkmax", (.named "Uint32")),
      ("Name_max", (.named "Uint32")),
      ("No_trunc", .bool),
      ("Chown_restricted", .bool),
      ("Case_insensitive", .bool),
      ("Case_preserving", .bool)]))),
   ("PATHCONF3resfail", (.struct (fields [("Obj_attributes", (.named "Post_op_attr"))]))),
   ("PATHCONF3res", (.struct (fields [("Status", (.named "Nfsstat3")),
      ("Resok", (.named "PATHCONF3resok")),
      ("Resfail", (.named "PATHCONF3resfail"))]))),
   ("COMMIT3args", (.struct (fields [("File", (.named "Nfs_fh3")),
      ("Offset", (.named "Offset3")),
      ("Count", (.named "Count3"))]))),
   ("COMMIT3resok", (.struct (fields [("File_wcc", (.named "Wcc_data")),
      ("Verf", (.named "Writeverf3"))]))),
   ("COMMIT3resfail", (.struct (fields [("File_wcc", (.named "Wcc_data"))]))),
   ("COMMIT3res", (.struct (fields [("Status", (.named "Nfsstat3")),
      ("Resok", (.named "COMMIT3resok")),
      ("Resfail", (.named "COMMIT3resfail"))]))),
   ("Fhandle3", .bytes),
   ("Dirpath3", .string),
   ("Name3", .string),
   ("Mountstat3", .uint32),
   ("Mountres3_ok", (.struct (fields [("Fhandle", (.named "Fhandle3")),
      ("Auth_flavors", (.slice .uint32))]))),
   ("Mountres3", (.struct (fields [("Fhs_status", (.named "Mountstat3")),
      ("Mountinfo", (.named "Mountres3_ok"))]))),
   ("Mount3", (.struct (fields [("Ml_hostname", (.named "Name3")),
      ("Ml_directory", (.named "Dirpath3")),
      ("Ml_next", (.ptr (.named "Mount3")))]))),
   ("Mountopt3", (.struct (fields [("P", (.ptr (.named "Mount3")))]))),
   ("Groups3", (.struct (fields [("Gr_name", (.named "Name3")),
      ("Gr_next", (.ptr (.named "Groups3")))]))),
   ("Exports3", (.struct (fields [("Ex_dir", (.named "Dirpath3")),
      ("Ex_groups", (.ptr (.named "Groups3"))),
      ("Ex_next", (.ptr (.named "Exports3")))]))),
   ("Exportsopt3", (.struct (fields [("P", (.ptr (.named "Exports3")))])))]

/-- `func (v *Uint64) Xdr` in /repo/rfc1813/xdr.go -/
def xdr_Uint64 : Stmts :=
  (stmts [.xdrU64 .recv])

/-- `func (v *Uint32) Xdr` in /repo/rfc1813/xdr.go -/
def xdr_Uint32 : Stmts :=
  (stmts [.xdrU32 .recv])

/-- `func (v *Filename3) Xdr` in /repo/rfc1813/xdr.go -/
def xdr_Filename3 : Stmts :=
  (stmts [.xdrString none .recv])

/-- `func (v *Nfspath3) Xdr` in /repo/rfc1813/xdr.go -/
def xdr_Nfspath3 : Stmts :=
  (stmts [.xdrString none .recv])

/-- `func (v *Fileid3) Xdr` in /repo/rfc1813/xdr.go -/
def xdr_Fileid3 : Stmts :=
  (stmts [.callXdr "Uint64" .recv])

/-- `func (v *Cookie3) Xdr` in /repo/rfc1813/xdr.go -/
def xdr_Cookie3 : Stmts :=
  (stmts [.callXdr "Uint64" .recv])

/-- `func (v *Cookieverf3) Xdr` in /repo/rfc1813/xdr.go -/
def xdr_Cookieverf3 : Stmts :=
  (stmts [.xdrArray .recv])

/-- `func (v *Createverf3) Xdr` in /repo/rfc1813/xdr.go -/
def xdr_Createverf3 : Stmts :=
  (stmts [.xdrArray .recv])

/-- `func (v *Writeverf3) Xdr` in /repo/rfc1813/xdr.go -/
def xdr_Writeverf3 : Stmts :=
  (stmts [.xdrArray .recv])

/-- `func (v *Uid3) Xdr` in /repo/rfc1813/xdr.go -/
def xdr_Uid3 : Stmts :=
  (stmts [.callXdr "Uint32" .recv])

/-- `func (v *Gid3) Xdr` in /repo/rfc1813/xdr.go -/
def xdr_Gid3 : Stmts :=
  (stmts [.callXdr "Uint32" .recv])

/-- `func (v *Size3) Xdr` in /repo/rfc1813/xdr.go -/
def xdr_Size3 : Stmts :=
  (stmts [.callXdr "Uint64" .recv])

/-- `func (v *Offset3) Xdr` in /repo/rfc1813/xdr.go -/
def xdr_Offset3 : Stmts :=
  (stmts [.callXdr "Uint64" .recv])

/-- `func (v *Mode3) Xdr` in /repo/rfc1813/xdr.go -/
def xdr_Mode3 : Stmts :=
  (stmts [.callXdr "Uint32" .recv])

/-- `func (v *Count3) Xdr` in /repo/rfc1813/xdr.go -/
def xdr_Count3 : Stmts :=
  (stmts [.callXdr "Uint32" .recv])

/-- `func (v *Nfsstat3) Xdr` in /repo/rfc1813/xdr.go -/
def xdr_Nfsstat3 : Stmts :=
  (stmts [.xdrU32 .recv])

/-- `func (v *Ftype3) Xdr` in /repo/rfc1813/xdr.go -/
def xdr_Ftype3 : Stmts :=
  (stmts [.xdrU32 .recv])

/-- `func (v *Specdata3) Xdr` in /repo/rfc1813/xdr.go -/
def xdr_Specdata3 : Stmts :=
  (stmts [.callXdr "Uint32" (.addr (.field .recv "Specdata1")),
      .callXdr "Uint32" (.addr (.field .recv "Specdata2"))])

/-- `func (v *Nfs_fh3) Xdr` in /repo/rfc1813/xdr.go -/
def xdr_Nfs_fh3 : Stmts :=
  (stmts [.xdrVarArray (some (.ident "NFS3_FHSIZE")) (.addr (.field .recv "Data"))])

/-- `func (v *Nfstime3) Xdr` in /repo/rfc1813/xdr.go -/
def xdr_Nfstime3 : Stmts :=
  (stmts [.callXdr "Uint32" (.addr (.field .recv "Seconds")),
      .callXdr "Uint32" (.addr (.field .recv "Nseconds"))])

/-- `func (v *Fattr3) Xdr` in /repo/rfc1813/xdr.go -/
def xdr_Fattr3 : Stmts :=
  (stmts [.callXdr "Ftype3" (.addr (.field .recv "Ftype")),
      .callXdr "Mode3" (.addr (.field .recv "Mode")),
      .callXdr "Uint32" (.addr (.field .recv "Nlink")),
      .callXdr "Uid3" (.addr (.field .recv "Uid")),
      .callXdr "Gid3" (.addr (.field .recv "Gid")),
      .callXdr "Size3" (.addr (.field .recv "Size")),
      .callXdr "Size3" (.addr (.field .recv "Used")),
      .callXdr "Specdata3" (.addr (.field .recv "Rdev")),
      .callXdr "Uint64" (.addr (.field .recv "Fsid")),
      .callXdr "Fileid3" (.addr (.field .recv "Fileid")),
      .callXdr "Nfstime3" (.addr (.field .recv "Atime")),
      .callXdr "Nfstime3" (.addr (.field .recv "Mtime")),
      .callXdr "Nfstime3" (.addr (.field .recv "Ctime"))])

/-- `func (v *Post_op_attr) Xdr` in /repo/rfc1813/xdr.go -/
def xdr_Post_op_attr : Stmts :=
  (stmts [.xdrBool (.addr (.field .recv "Attributes_follow")),
      .switch (.field .recv "Attributes_follow") (gocases [((.ident "true"), stmts [.callXdr "Fattr3" (.addr (.field .recv "Attributes"))], false),
      ((.ident "false"), stmts [], false)] none)])

/-- `func (v *Wcc_attr) Xdr` in /repo/rfc1813/xdr.go -/
def xdr_Wcc_attr : Stmts :=
  (stmts [.callXdr "Size3" (.addr (.field .recv "Size")),
      .callXdr "Nfstime3" (.addr (.field .recv "Mtime")),
      .callXdr "Nfstime3" (.addr (.field .recv "Ctime"))])

/-- `func (v *Pre_op_attr) Xdr` in /repo/rfc1813/xdr.go -/
def xdr_Pre_op_attr : Stmts :=
  (stmts [.xdrBool (.addr (.field .recv "Attributes_follow")),
      .switch (.field .recv "Attributes_follow") (gocases [((.ident "true"), stmts [.callXdr "Wcc_attr" (.addr (.field .recv "Attributes"))], false),
      ((.ident "false"), stmts [], false)] none)])

/-- `func (v *Wcc_data) Xdr` in /repo/rfc1813/xdr.go -/
def xdr_Wcc_data : Stmts :=
  (stmts [.callXdr "Pre_op_attr" (.addr (.field .recv "Before")),
      .callXdr "Post_op_attr" (.addr (.field .recv "After"))])

/-- `func (v *Post_op_fh3) Xdr` in /repo/rfc1813/xdr.go -/
def xdr_Post_op_fh3 : Stmts :=
  (stmts [.xdrBool (.addr (.field .recv "Handle_follows")),
      .switch (.field .recv "Handle_follows") (gocases [((.ident "true"), stmts [.callXdr "Nfs_fh3" (.addr (.field .recv "Handle"))], false),
      ((.ident "false"), stmts [], false)] none)])

/-- `func (v *Time_how) Xdr` in /repo/rfc1813/xdr.go -/
def xdr_Time_how : Stmts :=
  (stmts [.xdrU32 .recv])

/-- `func (v *Set_mode3) Xdr` in /repo/rfc1813/xdr.go -/
def xdr_Set_mode3 : Stmts :=
  (stmts [.xdrBool (.addr (.field .recv "Set_it")),
      .switch (.field .recv "Set_it") (gocases [((.ident "true"), stmts [.callXdr "Mode3" (.addr (.field .recv "Mode"))], false)] (some (stmts [])))])

/-- `func (v *Set_uid3) Xdr` in /repo/rfc1813/xdr.go -/
def xdr_Set_uid3 : Stmts :=
  (stmts [.xdrBool (.addr (.field .recv "Set_it")),
      .switch (.field .recv "Set_it") (gocases [((.ident "true"), stmts [.callXdr "Uid3" (.addr (.field .recv "Uid"))], false)] (some (stmts [])))])

/-- `func (v *Set_gid3) Xdr` in /repo/rfc1813/xdr.go -/
def xdr_Set_gid3 : Stmts :=
  (stmts [.xdrBool (.addr (.field .recv "Set_it")),
      .switch (.field .recv "Set_it") (gocases [((.ident "true"), stmts [.callXdr "Gid3" (.addr (.field .recv "Gid"))], false)] (some (stmts [])))])

/-- `func (v *Set_size3) Xdr` in /repo/rfc1813/xdr.go -/
def xdr_Set_size3 : Stmts :=
  (stmts [.xdrBool (.addr (.field .recv "Set_it")),
      .switch (.field .recv "Set_it") (gocases [((.ident "true"), stmts [.callXdr "Size3" (.addr (.field .recv "Size"))], false)] (some (stmts [])))])

/-- `func (v *Set_atime) Xdr` in /repo/rfc1813/xdr.go -/
def xdr_Set_atime : Stmts :=
  (stmts [.callXdr "Time_how" (.addr (.field .recv "Set_it")),
      .switch (.field .recv "Set_it") (gocases [((.ident "SET_TO_CLIENT_TIME"), stmts [.callXdr "Nfstime3" (.addr (.field .recv "Atime"))], false)] (some (stmts [])))])

/-- `func (v *Set_mtime) Xdr` in /repo/rfc1813/xdr.go -/
def xdr_Set_mtime : Stmts :=
  (stmts [.callXdr "Time_how" (.addr (.field .recv "Set_it")),
      .switch (.field .recv "Set_it") (gocases [((.ident "SET_TO_CLIENT_TIME"), stmts [.callXdr "Nfstime3" (.addr (.field .recv "Mtime"))], false)] (some (stmts [])))])

/-- `func (v *Sattr3) Xdr` in /repo/rfc1813/xdr.go -/
def xdr_Sattr3 : Stmts :=
  (stmts [.callXdr "Set_mode3" (.addr (.field .recv "Mode")),
      .callXdr "Set_uid3" (.addr (.field .recv "Uid")),
      .callXdr "Set_gid3" (.addr (.field .recv "Gid")),
      .callXdr "Set_size3" (.addr (.field .recv "Size")),
      .callXdr "Set_atime" (.addr (.field .recv "Atime")),
      .callXdr "Set_mtime" (.addr (.field .recv "Mtime"))])

/-- `func (v *Diropargs3) Xdr` in /repo/rfc1813/xdr.go -/
def xdr_Diropargs3 : Stmts :=
  (stmts [.callXdr "Nfs_fh3" (.addr (.field .recv "Dir")),
      .callXdr "Filename3" (.addr (.field .recv "Name"))])

/-- `func (v *GETATTR3args) Xdr` in /repo/rfc1813/xdr.go -/
def xdr_GETATTR3args : Stmts :=
  (stmts [.callXdr "Nfs_fh3" (.addr (.field .recv "Object"))])

/-- `func (v *GETATTR3resok) Xdr` in /repo/rfc1813/xdr.go -/
def xdr_GETATTR3resok : Stmts :=
  (stmts [.callXdr "Fattr3" (.addr (.field .recv "Obj_attributes"))])

/-- `func (v *GETATTR3res) Xdr` in /repo/rfc1813/xdr.go -/
def xdr_GETATTR3res : Stmts :=
  (stmts [.callXdr "Nfsstat3" (.addr (.field .recv "Status")),
      .switch (.field .recv "Status") (gocases [((.ident "NFS3_OK"), stmts [.callXdr "GETATTR3resok" (.addr (.field .recv "Resok"))], false)] (some (stmts [])))])

/-- `func (v *Sattrguard3) Xdr` in /repo/rfc1813/xdr.go -/
def xdr_Sattrguard3 : Stmts :=
  (stmts [.xdrBool (.addr (.field .recv "Check")),
      .switch (.field .recv "Check") (gocases [((.ident "true"), stmts [.callXdr "Nfstime3" (.addr (.field .recv "Obj_ctime"))], false),
      ((.ident "false"), stmts [], false)] none)])

/-- `func (v *SETATTR3args) Xdr` in /repo/rfc1813/xdr.go -/
def xdr_SETATTR3args : Stmts :=
  (stmts [.callXdr "Nfs_fh3" (.addr (.field .recv "Object")),
      .callXdr "Sattr3" (.addr (.field .recv "New_attributes")),
      .callXdr "Sattrguard3" (.addr (.field .recv "Guard"))])

/-- `func (v *SETATTR3resok) Xdr` in /repo/rfc1813/xdr.go -/
def xdr_SETATTR3resok : Stmts :=
  (stmts [.callXdr "Wcc_data" (.addr (.field .recv "Obj_wcc"))])

/-- `func (v *SETATTR3resfail) Xdr` in /repo/rfc1813/xdr.go -/
def xdr_SETATTR3resfail : Stmts :=
  (stmts [.callXdr "Wcc_data" (.addr (.field .recv "Obj_wcc"))])

/-- `func (v *SETATTR3res) Xdr` in /repo/rfc1813/xdr.go -/
def xdr_SETATTR3res : Stmts :=
  (stmts [.callXdr "Nfsstat3" (.addr (.field .recv "Status")),
      .switch (.field .recv "Status") (gocases [((.ident "NFS3_OK"), stmts [.callXdr "SETATTR3resok" (.addr (.field .recv "Resok"))], false)] (some (stmts [.callXdr "SETATTR3resfail" (.addr (.field .recv "Resfail"))])))])

/-- `func (v *LOOKUP3args) Xdr` in /repo/rfc1813/xdr.go -/
def xdr_LOOKUP3args : Stmts :=
  (stmts [.callXdr "Diropargs3" (.addr (.field .recv "What"))])

/-- `func (v *LOOKUP3resok) Xdr` in /repo/rfc1813/xdr.go -/
def xdr_LOOKUP3resok : Stmts :=
  (stmts [.callXdr "Nfs_fh3" (.addr (.field .recv "Object")),
      .callXdr "Post_op_attr" (.addr (.field .recv "Obj_attributes")),
      .callXdr "Post_op_attr" (.addr (.field .recv "Dir_attributes"))])

/-- `func (v *LOOKUP3resfail) Xdr` in /repo/rfc1813/xdr.go -/
def xdr_LOOKUP3resfail : Stmts :=
  (stmts [.callXdr "Post_op_attr" (.addr (.field .recv "Dir_attributes"))])

/-- `func (v *LOOKUP3res) Xdr` in /repo/rfc1813/xdr.go -/
def xdr_LOOKUP3res : Stmts :=
  (stmts [.callXdr "Nfsstat3" (.addr (.field .recv "Status")),
      .switch (.field .recv "Status") (gocases [((.ident "NFS3_OK"), stmts [.callXdr "LOOKUP3resok" (.addr (.field .recv "Resok"))], false)] (some (stmts [.callXdr "LOOKUP3resfail" (.addr (.field .recv "Resfail"))])))])

/-- `func (v *ACCESS3args) Xdr` in /repo/rfc1813/xdr.go -/
def xdr_ACCESS3args : Stmts :=
  (stmts [.callXdr "Nfs_fh3" (.addr (.field .recv "Object")),
      .callXdr "Uint32" (.addr (.field .recv "Access"))])

/-- `func (v *ACCESS3resok) Xdr` in /repo/rfc1813/xdr.go -/
def xdr_ACCESS3resok : Stmts :=
  (stmts [.callXdr "Post_op_attr" (.addr (.field .recv "Obj_attributes")),
      .callXdr "Uint32" (.addr (.field .recv "Access"))])

/-- `func (v *ACCESS3resfail) Xdr` in /repo/rfc1813/xdr.go -/
def xdr_ACCESS3resfail : Stmts :=
  (stmts [.callXdr "Post_op_attr" (.addr (.field .recv "Obj_attributes"))])

/-- `func (v *ACCESS3res) Xdr` in /repo/rfc1813/xdr.go -/
def xdr_ACCESS3res : Stmts :=
  (stmts [.callXdr "Nfsstat3" (.addr (.field .recv "Status")),
      .switch (.field .recv "Status") (gocases [((.ident "NFS3_OK"), stmts [.callXdr "ACCESS3resok" (.addr (.field .recv "Resok"))], false)] (some (stmts [.callXdr "ACCESS3resfail" (.addr (.field .recv "Resfail"))])))])

/-- `func (v *READLINK3args) Xdr` in /repo/rfc1813/xdr.go -/
def xdr_READLINK3args : Stmts :=
  (stmts [.callXdr "Nfs_fh3" (.addr (.field .recv "Symlink"))])

/-- `func (v *READLINK3resok) Xdr` in /repo/rfc1813/xdr.go -/
def xdr_READLINK3resok : Stmts :=
  (stmts [.callXdr "Post_op_attr" (.addr (.field .recv "Symlink_attributes")),
      .callXdr "Nfspath3" (.addr (.field .recv "Data"))])

/-- `func (v *READLINK3resfail) Xdr` in /repo/rfc1813/xdr.go -/
def xdr_READLINK3resfail : Stmts :=
  (stmts [.callXdr "Post_op_attr" (.addr (.field .recv "Symlink_attributes"))])

/-- `func (v *READLINK3res) Xdr` in /repo/rfc1813/xdr.go -/
def xdr_READLINK3res : Stmts :=
  (stmts [.callXdr "Nfsstat3" (.addr (.field .recv "Status")),
      .switch (.field .recv "Status") (gocases [((.ident "NFS3_OK"), stmts [.callXdr "READLINK3resok" (.addr (.field .recv "Resok"))], false)] (some (stmts [.callXdr "READLINK3resfail" (.addr (.field .recv "Resfail"))])))])

/-- `func (v *READ3args) Xdr` in /repo/rfc1813/xdr.go -/
def xdr_READ3args : Stmts :=
  (stmts [.callXdr "Nfs_fh3" (.addr (.field .recv "File")),
      .callXdr "Offset3" (.addr (.field .recv "Offset")),
      .callXdr "Count3" (.addr (.field .recv "Count"))])

/-- `func (v *READ3resok) Xdr` in /repo/rfc1813/xdr.go -/
def xdr_READ3resok : Stmts :=
  (stmts [.callXdr "Post_op_attr" (.addr (.field .recv "File_attributes")),
      .callXdr "Count3" (.addr (.field .recv "Count")),
      .xdrBool (.addr (.field .recv "Eof")),
      .xdrVarArray none (.addr (.field .recv "Data"))])

/-- `func (v *READ3resfail) Xdr` in /repo/rfc1813/xdr.go -/
def xdr_READ3resfail : Stmts :=
  (stmts [.callXdr "Post_op_attr" (.addr (.field .recv "File_attributes"))])

/-- `func (v *READ3res) Xdr` in /repo/rfc1813/xdr.go -/
def xdr_READ3res : Stmts :=
  (stmts [.callXdr "Nfsstat3" (.addr (.field .recv "Status")),
      .switch (.field .recv "Status") (gocases [((.ident "NFS3_OK"), stmts [.callXdr "READ3resok" (.addr (.field .recv "Resok"))], false)] (some (stmts [.callXdr "READ3resfail" (.addr (.field .recv "Resfail"))])))])

/-- `func (v *Stable_how) Xdr` in /repo/rfc1813/xdr.go -/
def xdr_Stable_how : Stmts :=
  (stmts [.xdrU32 .recv])

/-- `func (v *WRITE3args) Xdr` in /repo/rfc1813/xdr.go -/
def xdr_WRITE3args : Stmts :=
  (stmts [.callXdr "Nfs_fh3" (.addr (.field .recv "File")),
      .callXdr "Offset3" (.addr (.field .recv "Offset")),
      .callXdr "Count3" (.addr (.field .recv "Count")),
      .callXdr "Stable_how" (.addr (.field .recv "Stable")),
      .xdrVarArray none (.addr (.field .recv "Data"))])

/-- `func (v *WRITE3resok) Xdr` in /repo/rfc1813/xdr.go -/
def xdr_WRITE3resok : Stmts :=
  (stmts [.callXdr "Wcc_data" (.addr (.field .recv "File_wcc")),
      .callXdr "Count3" (.addr (.field .recv "Count")),
      .callXdr "Stable_how" (.addr (.field .recv "Committed")),
      .callXdr "Writeverf3" (.addr (.field .recv "Verf"))])

/-- `func (v *WRITE3resfail) Xdr` in /repo/rfc1813/xdr.go -/
def xdr_WRITE3resfail : Stmts :=
  (stmts [.callXdr "Wcc_data" (.addr (.field .recv "File_wcc"))])

/-- `func (v *WRITE3res) Xdr` in /repo/rfc1813/xdr.go -/
def xdr_WRITE3res : Stmts :=
  (stmts [.callXdr "Nfsstat3" (.addr (.field .recv "Status")),
      .switch (.field .recv "Status") (gocases [((.ident "NFS3_OK"), stmts [.callXdr "WRITE3resok" (.addr (.field .recv "Resok"))], false)] (some (stmts [.callXdr "WRITE3resfail" (.addr (.field .recv "Resfail"))])))])

/-- `func (v *Createmode3) Xdr` in /repo/rfc1813/xdr.go -/
def xdr_Createmode3 : Stmts :=
  (stmts [.xdrU32 .recv])

/-- `func (v *Createhow3) Xdr` in /repo/rfc1813/xdr.go -/
def xdr_Createhow3 : Stmts :=
  (stmts [.callXdr "Createmode3" (.addr (.field .recv "Mode")),
      .switch (.field .recv "Mode") (gocases [((.ident "UNCHECKED"), stmts [], true),
      ((.ident "GUARDED"), stmts [.callXdr "Sattr3" (.addr (.field .recv "Obj_attributes"))], false),
      ((.ident "EXCLUSIVE"), stmts [.callXdr "Createverf3" (.addr (.field .recv "Verf"))], false)] none)])

/-- `func (v *CREATE3args) Xdr` in /repo/rfc1813/xdr.go -/
def xdr_CREATE3args : Stmts :=
  (stmts [.callXdr "Diropargs3" (.addr (.field .recv "Where")),
      .callXdr "Createhow3" (.addr (.field .recv "How"))])

/-- `func (v *CREATE3resok) Xdr` in /repo/rfc1813/xdr.go -/
def xdr_CREATE3resok : Stmts :=
  (stmts [.callXdr "Post_op_fh3" (.addr (.field .recv "Obj")),
      .callXdr "Post_op_attr" (.addr (.field .recv "Obj_attributes")),
      .callXdr "Wcc_data" (.addr (.field .recv "Dir_wcc"))])

/-- `func (v *CREATE3resfail) Xdr` in /repo/rfc1813/xdr.go -/
def xdr_CREATE3resfail : Stmts :=
  (stmts [.callXdr "Wcc_data" (.addr (.field .recv "Dir_wcc"))])

/-- `func (v *CREATE3res) Xdr` in /repo/rfc1813/xdr.go -/
def xdr_CREATE3res : Stmts :=
  (stmts [.callXdr "Nfsstat3" (.addr (.field .recv "Status")),
      .switch (.field .recv "Status") (gocases [((.ident "NFS3_OK"), stmts [.callXdr "CREATE3resok" (.addr (.field .recv "Resok"))], false)] (some (stmts [.callXdr "CREATE3resfail" (.addr (.field .recv "Resfail"))])))])

/-- `func (v *MKDIR3args) Xdr` in /repo/rfc1813/xdr.go -/
def xdr_MKDIR3args : Stmts :=
  (stmts [.callXdr "Diropargs3" (.addr (.field .recv "Where")),
      .callXdr "Sattr3" (.addr (.field .recv "Attributes"))])

/-- `func (v *MKDIR3resok) Xdr` in /repo/rfc1813/xdr.go -/
def xdr_MKDIR3resok : Stmts :=
  (stmts [.callXdr "Post_op_fh3" (.addr (.field .recv "Obj")),
      .callXdr "Post_op_attr" (.addr (.field .recv "Obj_attributes")),
      .callXdr "Wcc_data" (.addr (.field .recv "Dir_wcc"))])

/-- `func (v *MKDIR3resfail) Xdr` in /repo/rfc1813/xdr.go -/
def xdr_MKDIR3resfail : Stmts :=
  (stmts [.callXdr "Wcc_data" (.addr (.field .recv "Dir_wcc"))])

/-- `func (v *MKDIR3res) Xdr` in /repo/rfc1813/xdr.go -/
def xdr_MKDIR3res : Stmts :=
  (stmts [.callXdr "Nfsstat3" (.addr (.field .recv "Status")),
      .switch (.field .recv "Status") (gocases [((.ident "NFS3_OK"), stmts [.callXdr "MKDIR3resok" (.addr (.field .recv "Resok"))], false)] (some (stmts [.callXdr "MKDIR3resfail" (.addr (.field .recv "Resfail"))])))])

/-- `func (v *Symlinkdata3) Xdr` in /repo/rfc1813/xdr.go -/
def xdr_Symlinkdata3 : Stmts :=
  (stmts [.callXdr "Sattr3" (.addr (.field .recv "Symlink_attributes")),
      .callXdr "Nfspath3" (.addr (.field .recv "Symlink_data"))])

/-- `func (v *SYMLINK3args) Xdr` in /repo/rfc1813/xdr.go -/
def xdr_SYMLINK3args : Stmts :=
  (stmts [.callXdr "Diropargs3" (.addr (.field .recv "Where")),
      .callXdr "Symlinkdata3" (.addr (.field .recv "Symlink"))])

/-- `func (v *SYMLINK3resok) Xdr` in /repo/rfc1813/xdr.go -/
def xdr_SYMLINK3resok : Stmts :=
  (stmts [.callXdr "Post_op_fh3" (.addr (.field .recv "Obj")),
      .callXdr "Post_op_attr" (.addr (.field .recv "Obj_attributes")),
      .callXdr "Wcc_data" (.addr (.field .recv "Dir_wcc"))])

/-- `func (v *SYMLINK3resfail) Xdr` in /repo/rfc1813/xdr.go -/
def xdr_SYMLINK3resfail : Stmts :=
  (stmts [.callXdr "Wcc_data" (.addr (.field .recv "Dir_wcc"))])

/-- `func (v *SYMLINK3res) Xdr` in /repo/rfc1813/xdr.go -/
def xdr_SYMLINK3res : Stmts :=
  (stmts [.callXdr "Nfsstat3" (.addr (.field .recv "Status")),
      .switch (.field .recv "Status") (gocases [((.ident "NFS3_OK"), stmts [.callXdr "SYMLINK3resok" (.addr (.field .recv "Resok"))], false)] (some (stmts [.callXdr "SYMLINK3resfail" (.addr (.field .recv "Resfail"))])))])

/-- `func (v *Devicedata3) Xdr` in /repo/rfc1813/xdr.go -/
def xdr_Devicedata3 : Stmts :=
  (stmts [.callXdr "Sattr3" (.addr (.field .recv "Dev_attributes")),
      .callXdr "Specdata3" (.addr (.field .recv "Spec"))])

/-- `func (v *Mknoddata3) Xdr` in /repo/rfc1813/xdr.go -/
def xdr_Mknoddata3 : Stmts :=
  (stmts [.callXdr "Ftype3" (.addr (.field .recv "Ftype")),
      .switch (.field .recv "Ftype") (gocases [((.ident "NF3CHR"), stmts [], true),
      ((.ident "NF3BLK"), stmts [.callXdr "Devicedata3" (.addr (.field .recv "Device"))], false),
      ((.ident "NF3SOCK"), stmts [], true),
      ((.ident "NF3FIFO"), stmts [.callXdr "Sattr3" (.addr (.field .recv "Pipe_attributes"))], false)] (some (stmts [])))])

/-- `func (v *MKNOD3args) Xdr` in /repo/rfc1813/xdr.go -/
def xdr_MKNOD3args : Stmts :=
  (stmts [.callXdr "Diropargs3" (.addr (.field .recv "Where")),
      .callXdr "Mknoddata3" (.addr (.field .recv "What"))])

/-- `func (v *MKNOD3resok) Xdr` in /repo/rfc1813/xdr.go -/
def xdr_MKNOD3resok : Stmts :=
  (stmts [.callXdr "Post_op_fh3" (.addr (.field .recv "Obj")),
      .callXdr "Post_op_attr" (.addr (.field .recv "Obj_attributes")),
      .callXdr "Wcc_data" (.addr (.field .recv "Dir_wcc"))])

/-- `func (v *MKNOD3resfail) Xdr` in /repo/rfc1813/xdr.go -/
def xdr_MKNOD3resfail : Stmts :=
  (stmts [.callXdr "Wcc_data" (.addr (.field .recv "Dir_wcc"))])

/-- `func (v *MKNOD3res) Xdr` in /repo/rfc1813/xdr.go -/
def xdr_MKNOD3res : Stmts :=
  (stmts [.callXdr "Nfsstat3" (.addr (.field .recv "Status")),
      .switch (.field .recv "Status") (gocases [((.ident "NFS3_OK"), stmts [.callXdr "MKNOD3resok" (.addr (.field .recv "Resok"))], false)] (some (stmts [.callXdr "MKNOD3resfail" (.addr (.field .recv "Resfail"))])))])

/-- `func (v *REMOVE3args) Xdr` in /repo/rfc1813/xdr.go -/
def xdr_REMOVE3args : Stmts :=
  (stmts [.callXdr "Diropargs3" (.addr (.field .recv "Object"))])

/-- `func (v *REMOVE3resok) Xdr` in /repo/rfc1813/xdr.go -/
def xdr_REMOVE3resok : Stmts :=
  (stmts [.callXdr "Wcc_data" (.addr (.field .recv "Dir_wcc"))])

/-- `func (v *REMOVE3resfail) Xdr` in /repo/rfc1813/xdr.go -/
def xdr_REMOVE3resfail : Stmts :=
  (stmts [.callXdr "Wcc_data" (.addr (.field .recv "Dir_wcc"))])

/-- `func (v *REMOVE3res) Xdr` in /repo/rfc1813/xdr.go -/
def xdr_REMOVE3res : Stmts :=
  (stmts [.callXdr "Nfsstat3" (.addr (.field .recv "Status")),
      .switch (.field .recv "Status") (gocases [((.ident "NFS3_OK"), stmts [.callXdr "REMOVE3resok" (.addr (.field .recv "Resok"))], false)] (some (stmts [.callXdr "REMOVE3resfail" (.addr (.field .recv "Resfail"))])))])

/-- `func (v *RMDIR3args) Xdr` in /repo/rfc1813/xdr.go -/
def xdr_RMDIR3args : Stmts :=
  (stmts [.callXdr "Diropargs3" (.addr (.field .recv "Object"))])

/-- `func (v *RMDIR3resok) Xdr` in /repo/rfc1813/xdr.go -/
def xdr_RMDIR3resok : Stmts :=
  (stmts [.callXdr "Wcc_data" (.addr (.field .recv "Dir_wcc"))])

/-- `func (v *RMDIR3resfail) Xdr` in /repo/rfc1813/xdr.go -/
def xdr_RMDIR3resfail : Stmts :=
  (stmts [.callXdr "Wcc_data" (.addr (.field .recv "Dir_wcc"))])

/-- `func (v *RMDIR3res) Xdr` in /repo/rfc1813/xdr.go -/
def xdr_RMDIR3res : Stmts :=
  (stmts [.callXdr "Nfsstat3" (.addr (.field .recv "Status")),
      .switch (.field .recv "Status") (gocases [((.ident "NFS3_OK"), stmts [.callXdr "RMDIR3resok" (.addr (.field .recv "Resok"))], false)] (some (stmts [.callXdr "RMDIR3resfail" (.addr (.field .recv "Resfail"))])))])

/-- `func (v *RENAME3args) Xdr` in /repo/rfc1813/xdr.go -/
def xdr_RENAME3args : Stmts :=
  (stmts [.callXdr "Diropargs3" (.addr (.field .recv "From")),
      .callXdr "Diropargs3" (.addr (.field .recv "To"))])

/-- `func (v *RENAME3resok) Xdr` in /repo/rfc1813/xdr.go -/
def xdr_RENAME3resok : Stmts :=
  (stmts [.callXdr "Wcc_data" (.addr (.field .recv "Fromdir_wcc")),
      .callXdr "Wcc_data" (.addr (.field .recv "Todir_wcc"))])

/-- `func (v *RENAME3resfail) Xdr` in /repo/rfc1813/xdr.go -/
def xdr_RENAME3resfail : Stmts :=
  (stmts [.callXdr "Wcc_data" (.addr (.field .recv "Fromdir_wcc")),
      .callXdr "Wcc_data" (.addr (.field .recv "Todir_wcc"))])

/-- `func (v *RENAME3res) Xdr` in /repo/rfc1813/xdr.go -/
def xdr_RENAME3res : Stmts :=
  (stmts [.callXdr "Nfsstat3" (.addr (.field .recv "Status")),
      .switch (.field .recv "Status") (gocases [((.ident "NFS3_OK"), stmts [.callXdr "RENAME3resok" (.addr (.field .recv "Resok"))], false)] (some (stmts [.callXdr "RENAME3resfail" (.addr (.field .recv "Resfail"))])))])

/-- `func (v *LINK3args) Xdr` in /repo/rfc1813/xdr.go -/
def xdr_LINK3args : Stmts :=
  (stmts [.callXdr "Nfs_fh3" (.addr (.field .recv "File")),
      .callXdr "Diropargs3" (.addr (.field .recv "Link"))])

/-- `func (v *LINK3resok) Xdr` in /repo/rfc1813/xdr.go -/
def xdr_LINK3resok : Stmts :=
  (stmts [.callXdr "Post_op_attr" (.addr (.field .recv "File_attributes")),
      .callXdr "Wcc_data" (.addr (.field .recv "Linkdir_wcc"))])

/-- `func (v *LINK3resfail) Xdr` in /repo/rfc1813/xdr.go -/
def xdr_LINK3resfail : Stmts :=
  (stmts [.callXdr "Post_op_attr" (.addr (.field .recv "File_attributes")),
      .callXdr "Wcc_data" (.addr (.field .recv "Linkdir_wcc"))])

/-- `func (v *LINK3res) Xdr` in /repo/rfc1813/xdr.go -/
def xdr_LINK3res : Stmts :=
  (stmts [.callXdr "Nfsstat3" (.addr (.field .recv "Status")),
      .switch (.field .recv "Status") (gocases [((.ident "NFS3_OK"), stmts [.callXdr "LINK3resok" (.addr (.field .recv "Resok"))], false)] (some (stmts [.callXdr "LINK3resfail" (.addr (.field .recv "Resfail"))])))])

/-- `func (v *READDIR3args) Xdr` in /repo/rfc1813/xdr.go -/
def xdr_READDIR3args : Stmts :=
  (stmts [.callXdr "Nfs_fh3" (.addr (.field .recv "Dir")),
      .callXdr "Cookie3" (.addr (.field .recv "Cookie")),
      .callXdr "Cookieverf3" (.addr (.field .recv "Cookieverf")),
      .callXdr "Count3" (.addr (.field .recv "Count"))])

/-- `func (v *Entry3) Xdr` in /repo/rfc1813/xdr.go -/
def xdr_Entry3 : Stmts :=
  (stmts [.callXdr "Fileid3" (.addr (.field .recv "Fileid")),
      .callXdr "Filename3" (.addr (.field .recv "Name")),
      .callXdr "Cookie3" (.addr (.field .recv "Cookie")),
      .ifEncoding (stmts [.defNotNil "opted" (.addr (.field .recv "Nextentry")),
      .xdrBool (.addr (.var "opted")),
      .ifVar "opted" (stmts [.callXdr "Entry3" (.deref (.addr (.field .recv "Nextentry")))])]),
      .ifDecoding (stmts [.varBool "opted",
      .xdrBool (.addr (.var "opted")),
      .ifVar "opted" (stmts [.assignNew (.addr (.field .recv "Nextentry")) (.named "Entry3"),
      .callXdr "Entry3" (.deref (.addr (.field .recv "Nextentry")))])])])

/-- `func (v *Dirlist3) Xdr` in /repo/rfc1813/xdr.go -/
def xdr_Dirlist3 : Stmts :=
  (stmts [.ifEncoding (stmts [.defNotNil "opted" (.addr (.field .recv "Entries")),
      .xdrBool (.addr (.var "opted")),
      .ifVar "opted" (stmts [.callXdr "Entry3" (.deref (.addr (.field .recv "Entries")))])]),
      .ifDecoding (stmts [.varBool "opted",
      .xdrBool (.addr (.var "opted")),
      .ifVar "opted" (stmts [.assignNew (.addr (.field .recv "Entries")) (.named "Entry3"),
      .callXdr "Entry3" (.deref (.addr (.field .recv "Entries")))])]),
      .xdrBool (.addr (.field .recv "Eof"))])

/-- `func (v *READDIR3resok) Xdr` in /repo/rfc1813/xdr.go -/
def xdr_READDIR3resok : Stmts :=
  (stmts [.callXdr "Post_op_attr" (.addr (.field .recv "Dir_attributes")),
      .callXdr "Cookieverf3" (.addr (.field .recv "Cookieverf")),
      .callXdr "Dirlist3" (.addr (.field .recv "Reply"))])

/-- `func (v *READDIR3resfail) Xdr` in /repo/rfc1813/xdr.go -/
def xdr_READDIR3resfail : Stmts :=
  (stmts [.callXdr "Post_op_attr" (.addr (.field .recv "Dir_attributes"))])

/-- `func (v *READDIR3res) Xdr` in /repo/rfc1813/xdr.go -/
def xdr_READDIR3res : Stmts :=
  (stmts [.callXdr "Nfsstat3" (.addr (.field .recv "Status")),
      .switch (.field .recv "Status") (gocases [((.ident "NFS3_OK"), stmts [.callXdr "READDIR3resok" (.addr (.field .recv "Resok"))], false)] (some (stmts [.callXdr "READDIR3resfail" (.addr (.field .recv "Resfail"))])))])

/-- `func (v *READDIRPLUS3args) Xdr` in /repo/rfc1813/xdr.go -/
def xdr_READDIRPLUS3args : Stmts :=
  (stmts [.callXdr "Nfs_fh3" (.addr (.field .recv "Dir")),
      .callXdr "Cookie3" (.addr (.field .recv "Cookie")),
      .callXdr "Cookieverf3" (.addr (.field .recv "Cookieverf")),
      .callXdr "Count3" (.addr (.field .recv "Dircount")),
      .callXdr "Count3" (.addr (.field .recv "Maxcount"))])

/-- `func (v *Entryplus3) Xdr` in /repo/rfc1813/xdr.go -/
def xdr_Entryplus3 : Stmts :=
  (stmts [.callXdr "Fileid3" (.addr (.field .recv "Fileid")),
      .callXdr "Filename3" (.addr (.field .recv "Name")),
      .callXdr "Cookie3" (.addr (.field .recv "Cookie")),
      .callXdr "Post_op_attr" (.addr (.field .recv "Name_attributes")),
      .callXdr "Post_op_fh3" (.addr (.field .recv "Name_handle")),
      .ifEncoding (stmts [.defNotNil "opted" (.addr (.field .recv "Nextentry")),
      .xdrBool (.addr (.var "opted")),
      .ifVar "opted" (stmts [.callXdr "Entryplus3" (.deref (.addr (.field .recv "Nextentry")))])]),
      .ifDecoding (stmts [.varBool "opted",
      .xdrBool (.addr (.var "opted")),
      .ifVar "opted" (stmts [.assignNew (.addr (.field .recv "Nextentry")) (.named "Entryplus3"),
      .callXdr "Entryplus3" (.deref (.addr (.field .recv "Nextentry")))])])])

/-- `func (v *Dirlistplus3) Xdr` in /repo/rfc1813/xdr.go -/
def xdr_Dirlistplus3 : Stmts :=
  (stmts [.ifEncoding (stmts [.defNotNil "opted" (.addr (.field .recv "Entries")),
      .xdrBool (.addr (.var "opted")),
      .ifVar "opted" (stmts [.callXdr "Entryplus3" (.deref (.addr (.field .recv "Entries")))])]),
      .ifDecoding (stmts [.varBool "opted",
      .xdrBool (.addr (.var "opted")),
      .ifVar "opted" (stmts [.assignNew (.addr (.field .recv "Entries")) (.named "Entryplus3"),
      .callXdr "Entryplus3" (.deref (.addr (.field .recv "Entries")))])]),
      .xdrBool (.addr (.field .recv "Eof"))])

/-- `func (v *READDIRPLUS3resok) Xdr` in /repo/rfc1813/xdr.go -/
def xdr_READDIRPLUS3resok : Stmts :=
  (stmts [.callXdr "Post_op_attr" (.addr (.field .recv "Dir_attributes")),
      .callXdr "Cookieverf3" (.addr (.field .recv "Cookieverf")),
      .callXdr "Dirlistplus3" (.addr (.field .recv "Reply"))])

/-- `func (v *READDIRPLUS3resfail) Xdr` in /repo/rfc1813/xdr.go -/
def xdr_READDIRPLUS3resfail : Stmts :=
  (stmts [.callXdr "Post_op_attr" (.addr (.field .recv "Dir_attributes"))])

/-- `func (v *READDIRPLUS3res) Xdr` in /repo/rfc1813/xdr.go -/
def xdr_READDIRPLUS3res : Stmts :=
  (stmts [.callXdr "Nfsstat3" (.addr (.field .recv "Status")),
      .switch (.field .recv "Status") (gocases [((.ident "NFS3_OK"), stmts [.callXdr "READDIRPLUS3resok" (.addr (.field .recv "Resok"))], false)] (some (stmts [.callXdr "READDIRPLUS3resfail" (.addr (.field .recv "Resfail"))])))])

/-- `func (v *FSSTAT3args) Xdr` in /repo/rfc1813/xdr.go -/
def xdr_FSSTAT3args : Stmts :=
  (stmts [.callXdr "Nfs_fh3" (.addr (.field .recv "Fsroot"))])

/-- `func (v *FSSTAT3resok) Xdr` in /repo/rfc1813/xdr.go -/
def xdr_FSSTAT3resok : Stmts :=
  (stmts [.callXdr "Post_op_attr" (.addr (.field .recv "Obj_attributes")),
      .callXdr "Size3" (.addr (.field .recv "Tbytes")),
      .callXdr "Size3" (.addr (.field .recv "Fbytes")),
      .callXdr "Size3" (.addr (.field .recv "Abytes")),
      .callXdr "Size3" (.addr (.field .recv "Tfiles")),
      .callXdr "Size3" (.addr (.field .recv "Ffiles")),
      .callXdr "Size3" (.addr (.field .recv "Afiles")),
      .callXdr "Uint32" (.addr (.field .recv "Invarsec"))])

/-- `func (v *FSSTAT3resfail) Xdr` in /repo/rfc1813/xdr.go -/
def xdr_FSSTAT3resfail : Stmts :=
  (stmts [.callXdr "Post_op_attr" (.addr (.field .recv "Obj_attributes"))])

/-- `func (v *FSSTAT3res) Xdr` in /repo/rfc1813/xdr.go -/
def xdr_FSSTAT3res : Stmts :=
  (stmts [.callXdr "Nfsstat3" (.addr (.field .recv "Status")),
      .switch (.field .recv "Status") (gocases [((.ident "NFS3_OK"), stmts [.callXdr "FSSTAT3resok" (.addr (.field .recv "Resok"))], false)] (some (stmts [.callXdr "FSSTAT3resfail" (.addr (.field .recv "Resfail"))])))])

/-- `func (v *FSINFO3args) Xdr` in /repo/rfc1813/xdr.go -/
def xdr_FSINFO3args : Stmts :=
  (stmts [.callXdr "Nfs_fh3" (.addr (.field .recv "Fsroot"))])

/-- `func (v *FSINFO3resok) Xdr` in /repo/rfc1813/xdr.go -/
def xdr_FSINFO3resok : Stmts :=
  (stmts [.callXdr "Post_op_attr" (.addr (.field .recv "Obj_attributes")),
      .callXdr "Uint32" (.addr (.field .recv "Rtmax")),
      .callXdr "Uint32" (.addr (.field .recv "Rtpref")),
      .callXdr "Uint32" (.addr (.field .recv "Rtmult")),
      .callXdr "Uint32" (.addr (.field .recv "Wtmax")),
      .callXdr "Uint32" (.addr (.field .recv "Wtpref")),
      .callXdr "Uint32" (.addr (.field .recv "Wtmult")),
      .callXdr "Uint32" (.addr (.field .recv "Dtpref")),
      .callXdr "Size3" (.addr (.field .recv "Maxfilesize")),
      .callXdr "Nfstime3" (.addr (.field .recv "Time_delta")),
      .callXdr "Uint32" (.addr (.field .recv "Properties"))])

/-- `func (v *FSINFO3resfail) Xdr` in /repo/rfc1813/xdr.go -/
def xdr_FSINFO3resfail : Stmts :=
  (stmts [.callXdr "Post_op_attr" (.addr (.field .recv "Obj_attributes"))])

/-- `func (v *FSINFO3res) Xdr` in /repo/rfc1813/xdr.go -/
def xdr_FSINFO3res : Stmts :=
  (stmts [.callXdr "Nfsstat3" (.addr (.field .recv "Status")),
      .switch (.field .recv "Status") (gocases [((.ident "NFS3_OK"), stmts [.callXdr "FSINFO3resok" (.addr (.field .recv "Resok"))], false)] (some (stmts [.callXdr "FSINFO3resfail" (.addr (.field .recv "Resfail"))])))])

/-- `func (v *PATHCONF3args) Xdr` in /repo/rfc1813/xdr.go -/
def xdr_PATHCONF3args : Stmts :=
  (stmts [.callXdr "Nfs_fh3" (.addr (.field .recv "Object"))])

/-- `func (v *PATHCONF3resok) Xdr` in /repo/rfc1813/xdr.go -/
def xdr_PATHCONF3resok : Stmts :=
  (stmts [.callXdr "Post_op_attr" (.addr (.field .recv "Obj_attributes")),
      .callXdr "Uint32" (.addr (.field .recv "Linkmax")),
      .callXdr "Uint32" (.addr (.field .recv "Name_max")),
      .xdrBool (.addr (.field .recv "No_trunc")),
      .xdrBool (.addr (.field .recv "Chown_restricted")),
      .xdrBool (.addr (.field .recv "Case_insensitive")),
      .xdrBool (.addr (.field .recv "Case_preserving"))])

/-- `func (v *PATHCONF3resfail) Xdr` in /repo/rfc1813/xdr.go -/
def xdr_PATHCONF3resfail : Stmts :=
  (stmts [.callXdr "Post_op_attr" (.addr (.field .recv "Obj_attributes"))])

/-- `func (v *PATHCONF3res) Xdr` in /repo/rfc1813/xdr.go -/
def xdr_PATHCONF3res : Stmts :=
  (stmts [.callXdr "Nfsstat3" (.addr (.field .recv "Status")),
      .switch (.field .recv "Status") (gocases [((.ident "NFS3_OK"), stmts [.callXdr "PATHCONF3resok" (.addr (.field .recv "Resok"))], false)] (some (stmts [.callXdr "PATHCONF3resfail" (.addr (.field .recv "Resfail"))])))])

/-- `func (v *COMMIT3args) Xdr` in /repo/rfc1813/xdr.go -/
def xdr_COMMIT3args : Stmts :=
  (stmts [.callXdr "Nfs_fh3" (.addr (.field .recv "File")),
      .callXdr "Offset3" (.addr (.field .recv "Offset")),
      .callXdr "Count3" (.addr (.field .recv "Count"))])

/-- `func (v *COMMIT3resok) Xdr` in /repo/rfc1813/xdr.go -/
def xdr_COMMIT3resok : Stmts :=
  (stmts [.callXdr "Wcc_data" (.addr (.field .recv "File_wcc")),
      .callXdr "Writeverf3" (.addr (.field .recv "Verf"))])

/-- `func (v *COMMIT3resfail) Xdr` in /repo/rfc1813/xdr.go -/
def xdr_COMMIT3resfail : Stmts :=
  (stmts [.callXdr "Wcc_data" (.addr (.field .recv "File_wcc"))])

/-- `func (v *COMMIT3res) Xdr` in /repo/rfc1813/xdr.go -/
def xdr_COMMIT3res : Stmts :=
  (stmts [.callXdr "Nfsstat3" (.addr (.field .recv "Status")),
      .switch (.field .recv "Status") (gocases [((.ident "NFS3_OK"), stmts [.callXdr "COMMIT3resok" (.addr (.field .recv "Resok"))], false)] (some (stmts [.callXdr "COMMIT3resfail" (.addr (.field .recv "Resfail"))])))])

/-- `func (v *Fhandle3) Xdr` in /repo/rfc1813/xdr.go -/
def xdr_Fhandle3 : Stmts :=
  (stmts [.xdrVarArray (some (.ident "FHSIZE3")) .recv])

/-- `func (v *Dirpath3) Xdr` in /repo/rfc1813/xdr.go -/
def xdr_Dirpath3 : Stmts :=
  (stmts [.xdrString (some (.ident "MNTPATHLEN3")) .recv])

/-- `func (v *Name3) Xdr` in /repo/rfc1813/xdr.go -/
def xdr_Name3 : Stmts :=
  (stmts [.xdrString (some (.ident "MNTNAMLEN3")) .recv])

/-- `func (v *Mountstat3) Xdr` in /repo/rfc1813/xdr.go -/
def xdr_Mountstat3 : Stmts :=
  (stmts [.xdrU32 .recv])

/-- `func (v *Mountres3_ok) Xdr` in /repo/rfc1813/xdr.go -/
def xdr_Mountres3_ok : Stmts :=
  (stmts [.callXdr "Fhandle3" (.addr (.field .recv "Fhandle")),
      .block (stmts [.varU32 "__arraysz",
      .encSetSize "__arraysz" (.addr (.field .recv "Auth_flavors")),
      .xdrU32 (.addr (.var "__arraysz")),
      .ifDecoding (stmts [.assignMake (.addr (.field .recv "Auth_flavors")) .uint32 "__arraysz"]),
      .forU64 "i" "__arraysz" (stmts [.xdrU32 (.addr (.index (.deref (.addr (.field .recv "Auth_flavors"))) "i"))])])])

/-- `func (v *Mountres3) Xdr` in /repo/rfc1813/xdr.go -/
def xdr_Mountres3 : Stmts :=
  (stmts [.callXdr "Mountstat3" (.addr (.field .recv "Fhs_status")),
      .switch (.field .recv "Fhs_status") (gocases [((.ident "MNT3_OK"), stmts [.callXdr "Mountres3_ok" (.addr (.field .recv "Mountinfo"))], false)] (some (stmts [])))])

/-- `func (v *Mount3) Xdr` in /repo/rfc1813/xdr.go -/
def xdr_Mount3 : Stmts :=
  (stmts [.callXdr "Name3" (.addr (.field .recv "Ml_hostname")),
      .callXdr "Dirpath3" (.addr (.field .recv "Ml_directory")),
      .ifEncoding (stmts [.defNotNil "opted" (.addr (.field .recv "Ml_next")),
      .xdrBool (.addr (.var "opted")),
      .ifVar "opted" (stmts [.callXdr "Mount3" (.deref (.addr (.field .recv "Ml_next")))])]),
      .ifDecoding (stmts [.varBool "opted",
      .xdrBool (.addr (.var "opted")),
      .ifVar "opted" (stmts [.assignNew (.addr (.field .recv "Ml_next")) (.named "Mount3"),
      .callXdr "Mount3" (.deref (.addr (.field .recv "Ml_next")))])])])

/-- `func (v *Mountopt3) Xdr` in /repo/rfc1813/xdr.go -/
def xdr_Mountopt3 : Stmts :=
  (stmts [.ifEncoding (stmts [.defNotNil "opted" (.addr (.field .recv "P")),
      .xdrBool (.addr (.var "opted")),
      .ifVar "opted" (stmts [.callXdr "Mount3" (.deref (.addr (.field .recv "P")))])]),
      .ifDecoding (stmts [.varBool "opted",
      .xdrBool (.addr (.var "opted")),
      .ifVar "opted" (stmts [.assignNew (.addr (.field .recv "P")) (.named "Mount3"),
      .callXdr "Mount3" (.deref (.addr (.field .recv "P")))])])])

/-- `func (v *Groups3) Xdr` in /repo/rfc1813/xdr.go -/
def xdr_Groups3 : Stmts :=
  (stmts [.callXdr "Name3" (.addr (.field .recv "Gr_name")),
      .ifEncoding (stmts [.defNotNil "opted" (.addr (.field .recv "Gr_next")),
      .xdrBool (.addr (.var "opted")),
      .ifVar "opted" (stmts [.callXdr "Groups3" (.deref (.addr (.field .recv "Gr_next")))])]),
      .ifDecoding (stmts [.varBool "opted",
      .xdrBool (.addr (.var "opted")),
      .ifVar "opted" (stmts [.assignNew (.addr (.field .recv "Gr_next")) (.named "Groups3"),
      .callXdr "Groups3" (.deref (.addr (.field .recv "Gr_next")))])])])

/-- `func (v *Exports3) Xdr` in /repo/rfc1813/xdr.go -/
def xdr_Exports3 : Stmts :=
  (stmts [.callXdr "Dirpath3" (.addr (.field .recv "Ex_dir")),
      .ifEncoding (stmts [.defNotNil "opted" (.addr (.field .recv "Ex_groups")),
      .xdrBool (.addr (.var "opted")),
      .ifVar "opted" (stmts [.callXdr "Groups3" (.deref (.addr (.field .recv "Ex_groups")))])]),
      .ifDecoding (stmts [.varBool "opted",
      .xdrBool (.addr (.var "opted")),
      .ifVar "opted" (stmts [.assignNew (.addr (.field .recv "Ex_groups")) (.named "Groups3"),
      .callXdr "Groups3" (.deref (.addr (.field .recv "Ex_groups")))])]),
      .ifEncoding (stmts [.defNotNil "opted" (.addr (.field .recv "Ex_next")),
      .xdrBool (.addr (.var "opted")),
      .ifVar "opted" (stmts [.callXdr "Exports3" (.deref (.addr (.field .recv "Ex_next")))])]),
      .ifDecoding (stmts [.varBool "opted",
      .xdrBool (.addr (.var "opted")),
      .ifVar "opted" (stmts [.assignNew (.addr (.field .recv "Ex_next")) (.named "Exports3"),
      .callXdr "Exports3" (.deref (.addr (.field .recv "Ex_next")))])])])

/-- `func (v *Exportsopt3) Xdr` in /repo/rfc1813/xdr.go -/
def xdr_Exportsopt3 : Stmts :=
  (stmts [.ifEncoding (stmts [.defNotNil "opted" (.addr (.field .recv "P")),
      .xdrBool (.addr (.var "opted")),
      .ifVar "opted" (stmts [.callXdr "Exports3" (.deref (.addr (.field .recv "P")))])]),
      .ifDecoding (stmts [.varBool "opted",
      .xdrBool (.addr (.var "opted")),
      .ifVar "opted" (stmts [.assignNew (.addr (.field .recv "P")) (.named "Exports3"),
      .callXdr "Exports3" (.deref (.addr (.field .recv "P")))])])])

/-- the Xdr methods of /repo/rfc1813/xdr.go -/
def goMethods : List (Ident × Stmts) :=
  [("Uint64", xdr_Uint64),
   ("Uint32", xdr_Uint32),
   ("Filename3", xdr_Filename3),
   ("Nfspath3", xdr_Nfspath3),
   ("Fileid3", xdr_Fileid3),
   ("Cookie3", xdr_Cookie3),
   ("Cookieverf3", xdr_Cookieverf3),
   ("Createverf3", xdr_Createverf3),
   ("Writeverf3", xdr_Writeverf3),
   ("Uid3", xdr_Uid3),
   ("Gid3", xdr_Gid3),
   ("Size3", xdr_Size3),
   ("Offset3", xdr_Offset3),
   ("Mode3", xdr_Mode3),
   ("Count3", xdr_Count3),
   ("Nfsstat3", xdr_Nfsstat3),
   ("Ftype3", xdr_Ftype3),
   ("Specdata3", xdr_Specdata3),
   ("Nfs_fh3", xdr_Nfs_fh3),
   ("Nfstime3", xdr_Nfstime3),
   ("Fattr3", xdr_Fattr3),
   ("Post_op_attr", xdr_Post_op_attr),
   ("Wcc_attr", xdr_Wcc_attr),
   ("Pre_op_attr", xdr_Pre_op_attr),
   ("Wcc_data", xdr_Wcc_data),
   ("Post_op_fh3", xdr_Post_op_fh3),
   ("Time_how", xdr_Time_how),
   ("Set_mode3", xdr_Set_mode3),
   ("Set_uid3", xdr_Set_uid3),
   ("Set_gid3", xdr_Set_gid3),
   ("Set_size3", xdr_Set_size3),
   ("Set_atime", xdr_Set_atime),
   ("Set_mtime", xdr_Set_mtime),
   ("Sattr3", xdr_Sattr3),
   ("Diropargs3", xdr_Diropargs3),
   ("GETATTR3args", xdr_GETATTR3args),
   ("GETATTR3resok", xdr_GETATTR3resok),
   ("GETATTR3res", xdr_GETATTR3res),
   ("Sattrguard3", xdr_Sattrguard3),
   ("SETATTR3args", xdr_SETATTR3args),
   ("SETATTR3resok", xdr_SETATTR3resok),
   ("SETATTR3resfail", xdr_SETATTR3resfail),
   ("SETATTR3res", xdr_SETATTR3res),
   ("LOOKUP3args", xdr_LOOKUP3args),
   ("LOOKUP3resok", xdr_LOOKUP3resok),
   ("LOOKUP3resfail", xdr_LOOKUP3resfail),
   ("LOOKUP3res", xdr_LOOKUP3res),
   ("ACCESS3args", xdr_ACCESS3args),
   ("ACCESS3resok", xdr_ACCESS3resok),
   ("ACCESS3resfail", xdr_ACCESS3resfail),
   ("ACCESS3res", xdr_ACCESS3res),
   ("READLINK3args", xdr_READLINK3args),
   ("READLINK3resok", xdr_READLINK3resok),
   ("READLINK3resfail", xdr_READLINK3resfail),
   ("READLINK3res", xdr_READLINK3res),
   ("READ3args", xdr_READ3args),
   ("READ3resok", xdr_READ3resok),
   ("READ3resfail", xdr_READ3resfail),
   ("READ3res", xdr_READ3res),
   ("Stable_how", xdr_Stable_how),
   ("WRITE3args", xdr_WRITE3args),
   ("WRITE3resok", xdr_WRITE3resok),
   ("WRITE3resfail", xdr_WRITE3resfail),
   ("WRITE3res", xdr_WRITE3res),
   ("Createmode3", xdr_Createmode3),
   ("Createhow3", xdr_Createhow3),
   ("CREATE3args", xdr_CREATE3args),
   ("CREATE3resok", xdr_CREATE3resok),
   ("CREATE3resfail", xdr_CREATE3resfail),
   ("CREATE3res", xdr_CREATE3res),
   ("MKDIR3args", xdr_MKDIR3args),
   ("MKDIR3resok", xdr_MKDIR3resok),
   ("MKDIR3resfail", xdr_MKDIR3resfail),
   ("MKDIR3res", xdr_MKDIR3res),
   ("Symlinkdata3", xdr_Symlinkdata3),
   ("SYMLINK3args", xdr_SYMLINK3args),
   ("SYMLINK3resok", xdr_SYMLINK3resok),
   ("SYMLINK3resfail", xdr_SYMLINK3resfail),
   ("SYMLINK3res", xdr_SYMLINK3res),
   ("Devicedata3", xdr_Devicedata3),
   ("Mknoddata3", xdr_Mknoddata3),
   ("MKNOD3args", xdr_MKNOD3args),
   ("MKNOD3resok", xdr_MKNOD3resok),
   ("MKNOD3resfail", xdr_MKNOD3resfail),
   ("MKNOD3res", xdr_MKNOD3res),
   ("REMOVE3args", xdr_REMOVE3args),
   ("REMOVE3resok", xdr_REMOVE3resok),
   ("REMOVE3resfail", xdr_REMOVE3resfail),
   ("REMOVE3res", xdr_REMOVE3res),
   ("RMDIR3args", xdr_RMDIR3args),
   ("RMDIR3resok", xdr_RMDIR3resok),
   ("RMDIR3resfail", xdr_RMDIR3resfail),
   ("RMDIR3res", xdr_RMDIR3res),
   ("RENAME3args", xdr_RENAME3args),
   ("RENAME3resok", xdr_RENAME3resok),
   ("RENAME3resfail", xdr_RENAME3resfail),
   ("RENAME3res", xdr_RENAME3res),
   ("LINK3args", xdr_LINK3args),
   ("LINK3resok", xdr_LINK3resok),
   ("LINK3resfail", xdr_LINK3resfail),
   ("LINK3res", xdr_LINK3res),
   ("READDIR3args", xdr_READDIR3args),
   ("Entry3", xdr_Entry3),
   ("Dirlist3", xdr_Dirlist3),
   ("READDIR3resok", xdr_READDIR3resok),
   ("READDIR3resfail", xdr_READDIR3resfail),
   ("READDIR3res", xdr_READDIR3res),
   ("READDIRPLUS3args", xdr_READDIRPLUS3args),
   ("Entryplus3", xdr_Entryplus3),
   ("Dirlistplus3", xdr_Dirlistplus3),
   ("READDIRPLUS3resok", xdr_READDIRPLUS3resok),
   ("READDIRPLUS3resfail", xdr_READDIRPLUS3resfail),
   ("READDIRPLUS3res", xdr_READDIRPLUS3res),
   ("FSSTAT3args", xdr_FSSTAT3args),
   ("FSSTAT3resok", xdr_FSSTAT3resok),
   ("FSSTAT3resfail", xdr_FSSTAT3resfail),
   ("FSSTAT3res", xdr_FSSTAT3res),
   ("FSINFO3args", xdr_FSINFO3args),
   ("FSINFO3resok", xdr_FSINFO3resok),
   ("FSINFO3resfail", xdr_FSINFO3resfail),
   ("FSINFO3res", xdr_FSINFO3res),
   ("PATHCONF3args", xdr_PATHCONF3args),
   ("PATHCONF3resok", xdr_PATHCONF3resok),
   ("PATHCONF3resfail", xdr_PATHCONF3resfail),
   ("PATHCONF3res", xdr_PATHCONF3res),
   ("COMMIT3args", xdr_COMMIT3args),
   ("COMMIT3resok", xdr_COMMIT3resok),
   ("COMMIT3resfail", xdr_COMMIT3resfail),
   ("COMMIT3res", xdr_COMMIT3res),
   ("Fhandle3", xdr_Fhandle3),
   ("Dirpath3", xdr_Dirpath3),
   ("Name3", xdr_Name3),
   ("Mountstat3", xdr_Mountstat3),
   ("Mountres3_ok", xdr_Mountres3_ok),
   ("Mountres3", xdr_Mountres3),
   ("Mount3", xdr_Mount3),
   ("Mountopt3", xdr_Mountopt3),
   ("Groups3", xdr_Groups3),
   ("Exports3", xdr_Exports3),
   ("Exportsopt3", xdr_Exportsopt3)]

/-- the handler interfaces, wrappers and registration tables of /repo/rfc1813/xdr.go -/
def goVers : List GoVers :=
  [⟨"NFS_PROGRAM_NFS_V3_handler", [⟨"NFSPROC3_NULL", none, none⟩,
    ⟨"NFSPROC3_GETATTR", (some (.named "GETATTR3args")), (some (.named "GETATTR3res"))⟩,
    ⟨"NFSPROC3_SETATTR", (some (.named "SETATTR3args")), (some (.named "SETATTR3res"))⟩,
    ⟨"NFSPROC3_LOOKUP", (some (.named "LOOKUP3args")), (some (.named "LOOKUP3res"))⟩,
    ⟨"NFSPROC3_ACCESS", (some (.named "ACCESS3args")), (some (.named "ACCESS3res"))⟩,
    ⟨"NFSPROC3_READLINK", (some (.named "READLINK3args")), (some (.named "READLINK3res"))⟩,
    ⟨"NFSPROC3_READ", (some (.named "READ3args")), (some (.named "READ3res"))⟩,
    ⟨"NFSPROC3_WRITE", (some (.named "WRITE3args")), (some (.named "WRITE3res"))⟩,
    ⟨"NFSPROC3_CREATE", (some (.named "CREATE3args")), (some (.named "CREATE3res"))⟩,
    ⟨"NFSPROC3_MKDIR", (some (.named "MKDIR3args")), (some (.named "MKDIR3res"))⟩,
    ⟨"NFSPROC3_SYMLINK", (some (.named "SYMLINK3args")), (some (.named "SYMLINK3res"))⟩,
    ⟨"NFSPROC3_MKNOD", (some (.named "MKNOD3args")), (some (.named "MKNOD3res"))⟩,
    ⟨"NFSPROC3_REMOVE", (some (.named "REMOVE3args")), (some (.named "REMOVE3res"))⟩,
    ⟨"NFSPROC3_RMDIR", (some (.named "RMDIR3args")), (some (.named "RMDIR3res"))⟩,
    ⟨"NFSPROC3_RENAME", (some (.named "RENAME3args")), (some (.named "RENAME3res"))⟩,
    ⟨"NFSPROC3_LINK", (some (.named "LINK3args")), (some (.named "LINK3res"))⟩,
    ⟨"NFSPROC3_READDIR", (some (.named "READDIR3args")), (some (.named "READDIR3res"))⟩,
    ⟨"NFSPROC3_READDIRPLUS", (some (.named "READDIRPLUS3args")), (some (.named "READDIRPLUS3res"))⟩,
    ⟨"NFSPROC3_FSSTAT", (some (.named "FSSTAT3args")), (some (.named "FSSTAT3res"))⟩,
    ⟨"NFSPROC3_FSINFO", (some (.named "FSINFO3args")), (some (.named "FSINFO3res"))⟩,
    ⟨"NFSPROC3_PATHCONF", (some (.named "PATHCONF3args")), (some (.named "PATHCONF3res"))⟩,
    ⟨"NFSPROC3_COMMIT", (some (.named "COMMIT3args")), (some (.named "COMMIT3res"))⟩],
   "NFS_PROGRAM_NFS_V3_handler_wrapper", "NFS_PROGRAM_NFS_V3_handler",
   [⟨"NFS_PROGRAM_NFS_V3_handler_wrapper", "NFSPROC3_NULL", [.varOutVoid, .callH "NFSPROC3_NULL" false false, .retOut]⟩,
    ⟨"NFS_PROGRAM_NFS_V3_handler_wrapper", "NFSPROC3_GETATTR", [.varIn (.named "GETATTR3args"), .inXdr, .setErr, .retIfErr, .varOut (.named "GETATTR3res"), .callH "NFSPROC3_GETATTR" true true, .retOut]⟩,
    ⟨"NFS_PROGRAM_NFS_V3_handler_wrapper", "NFSPROC3_SETATTR", [.varIn (.named "SETATTR3args"), .inXdr, .setErr, .retIfErr, .varOut (.named "SETATTR3res"), .callH "NFSPROC3_SETATTR" true true, .retOut]⟩,
    ⟨"NFS_PROGRAM_NFS_V3_handler_wrapper", "NFSPROC3_LOOKUP", [.varIn (.named "LOOKUP3args"), .inXdr, .setErr, .retIfErr, .varOut (.named "LOOKUP3res"), .callH "NFSPROC3_LOOKUP" true true, .retOut]⟩,
    ⟨"NFS_PROGRAM_NFS_V3_handler_wrapper", "NFSPROC3_ACCESS", [.varIn (.named "ACCESS3args"), .inXdr, .setErr, .retIfErr, .varOut (.named "ACCESS3res"), .callH "NFSPROC3_ACCESS" true true, .retOut]⟩,
    ⟨"NFS_PROGRAM_NFS_V3_handler_wrapper", "NFSPROC3_READLINK", [.varIn (.named "READLINK3args"), .inXdr, .setErr, .retIfErr, .varOut (.named "READLINK3res"), .callH "NFSPROC3_READLINK" true true, .retOut]⟩,
    ⟨"NFS_PROGRAM_NFS_V3_handler_wrapper", "NFSPROC3_READ", [.varIn (.named "READ3args"), .inXdr, .setErr, .retIfErr, .varOut (.named "READ3res"), .callH "NFSPROC3_READ" true true, .retOut]⟩,
    ⟨"NFS_PROGRAM_NFS_V3_handler_wrapper", "NFSPROC3_WRITE", [.varIn (.named "WRITE3args"), .inXdr, .setErr, .retIfErr, .varOut (.named "WRITE3res"), .callH "NFSPROC3_WRITE" true true, .retOut]⟩,
    ⟨"NFS_PROGRAM_NFS_V3_handler_wrapper", "NFSPROC3_CREATE", [.varIn (.named "CREATE3args"), .inXdr, .setErr, .retIfErr, .varOut (.named "CREATE3res"), .callH "NFSPROC3_CREATE" true true, .retOut]⟩,
    ⟨"NFS_PROGRAM_NFS_V3_handler_wrapper", "NFSPROC3_MKDIR", [.varIn (.named "MKDIR3args"), .inXdr, .setErr, .retIfErr, .varOut (.named "MKDIR3res"), .callH "NFSPROC3_MKDIR" true true, .retOut]⟩,
    ⟨"NFS_PROGRAM_NFS_V3_handler_wrapper", "NFSPROC3_SYMLINK", [.varIn (.named "SYMLINK3args"), .inXdr, .setErr, .retIfErr, .varOut (.named "SYMLINK3res"), .callH "NFSPROC3_SYMLINK" true true, .retOut]⟩,
    ⟨"NFS_PROGRAM_NFS_V3_handler_wrapper", "NFSPROC3_MKNOD", [.varIn (.named "MKNOD3args"), .inXdr, .setErr, .retIfErr, .varOut (.named "MKNOD3res"), .callH "NFSPROC3_MKNOD" true true, .retOut]⟩,
    ⟨"NFS_PROGRAM_NFS_V3_handler_wrapper", "NFSPROC3_REMOVE", [.varIn (.named "REMOVE3args"), .inXdr, .setErr, .retIfErr, .varOut (.named "REMOVE3res"), .callH "NFSPROC3_REMOVE" true true, .retOut]⟩,
    ⟨"NFS_PROGRAM_NFS_V3_handler_wrapper", "NFSPROC3_RMDIR", [.varIn (.named "RMDIR3args"), .inXdr, .setErr, .retIfErr, .varOut (.named "RMDIR3res"), .callH "NFSPROC3_RMDIR" true true, .retOut]⟩,
    ⟨"NFS_PROGRAM_NFS_V3_handler_wrapper", "NFSPROC3_RENAME", [.varIn (.named "RENAME3args"), .inXdr, .setErr, .retIfErr, .varOut (.named "RENAME3res"), .callH "NFSPROC3_RENAME" true true, .retOut]⟩,
    ⟨"NFS_PROGRAM_NFS_V3_handler_wrapper", "NFSPROC3_LINK", [.varIn (.named "LINK3args"), .inXdr, .setErr, .retIfErr, .varOut (.named "LINK3res"), .callH "NFSPROC3_LINK" true true, .retOut]⟩,
    ⟨"NFS_PROGRAM_NFS_V3_handler_wrapper", "NFSPROC3_READDIR", [.varIn (.named "READDIR3args"), .inXdr, .setErr, .retIfErr, .varOut (.named "READDIR3res"), .callH "NFSPROC3_READDIR" true true, .retOut]⟩,
    ⟨"NFS_PROGRAM_NFS_V3_handler_wrapper", "NFSPROC3_READDIRPLUS", [.varIn (.named "READDIRPLUS3args"), .inXdr, .setErr, .retIfErr, .varOut (.named "READDIRPLUS3res"), .callH "NFSPROC3_READDIRPLUS" true true, .retOut]⟩,
    ⟨"NFS_PROGRAM_NFS_V3_handler_wrapper", "NFSPROC3_FSSTAT", [.varIn (.named "FSSTAT3args"), .inXdr, .setErr, .retIfErr, .varOut (.named "FSSTAT3res"), .callH "NFSPROC3_FSSTAT" true true, .retOut]⟩,
    ⟨"NFS_PROGRAM_NFS_V3_handler_wrapper", "NFSPROC3_FSINFO", [.varIn (.named "FSINFO3args"), .inXdr, .setErr, .retIfErr, .varOut (.named "FSINFO3res"), .callH "NFSPROC3_FSINFO" true true, .retOut]⟩,
    ⟨"NFS_PROGRAM_NFS_V3_handler_wrapper", "NFSPROC3_PATHCONF", [.varIn (.named "PATHCONF3args"), .inXdr, .setErr, .retIfErr, .varOut (.named "PATHCONF3res"), .callH "NFSPROC3_PATHCONF" true true, .retOut]⟩,
    ⟨"NFS_PROGRAM_NFS_V3_handler_wrapper", "NFSPROC3_COMMIT", [.varIn (.named "COMMIT3args"), .inXdr, .setErr, .retIfErr, .varOut (.named "COMMIT3res"), .callH "NFSPROC3_COMMIT" true true, .retOut]⟩],
   "NFS_PROGRAM_NFS_V3_regs", "NFS_PROGRAM_NFS_V3_handler", "NFS_PROGRAM_NFS_V3_handler_wrapper",
   [⟨"NFS_PROGRAM", "NFS_V3", "NFSPROC3_NULL", "NFSPROC3_NULL"⟩,
    ⟨"NFS_PROGRAM", "NFS_V3", "NFSPROC3_GETATTR", "NFSPROC3_GETATTR"⟩,
    ⟨"NFS_PROGRAM", "NFS_V3", "NFSPROC3_SETATTR", "NFSPROC3_SETATTR"⟩,
    ⟨"NFS_PROGRAM", "NFS_V3", "NFSPROC3_LOOKUP", "NFSPROC3_LOOKUP"⟩,
    ⟨"NFS_PROGRAM", "NFS_V3", "NFSPROC3_ACCESS", "NFSPROC3_ACCESS"⟩,
    ⟨"NFS_PROGRAM", "NFS_V3", "NFSPROC3_READLINK", "NFSPROC3_READLINK"⟩,
    ⟨"NFS_PROGRAM", "NFS_V3", "NFSPROC3_READ", "NFSPROC3_READ"⟩,
    ⟨"NFS_PROGRAM", "NFS_V3", "NFSPROC3_WRITE", "NFSPROC3_WRITE"⟩,
    ⟨"NFS_PROGRAM", "NFS_V3", "NFSPROC3_CREATE", "NFSPROC3_CREATE"⟩,
    ⟨"NFS_PROGRAM", "NFS_V3", "NFSPROC3_MKDIR", "NFSPROC3_MKDIR"⟩,
    ⟨"NFS_PROGRAM", "NFS_V3", "NFSPROC3_SYMLINK", "NFSPROC3_SYMLINK"⟩,
    ⟨"NFS_PROGRAM", "NFS_V3", "NFSPROC3_MKNOD", "NFSPROC3_MKNOD"⟩,
    ⟨"NFS_PROGRAM", "NFS_V3", "NFSPROC3_REMOVE", "NFSPROC3_REMOVE"⟩,
    ⟨"NFS_PROGRAM", "NFS_V3", "NFSPROC3_RMDIR", "NFSPROC3_RMDIR"⟩,
    ⟨"NFS_PROGRAM", "NFS_V3", "NFSPROC3_RENAME", "NFSPROC3_RENAME"⟩,
    ⟨"NFS_PROGRAM", "NFS_V3", "NFSPROC3_LINK", "NFSPROC3_LINK"⟩,
    ⟨"NFS_PROGRAM", "NFS_V3", "NFSPROC3_READDIR", "NFSPROC3_READDIR"⟩,
    ⟨"NFS_PROGRAM", "NFS_V3", "NFSPROC3_READDIRPLUS", "NFSPROC3_READDIRPLUS"⟩,
    ⟨"NFS_PROGRAM", "NFS_V3", "NFSPROC3_FSSTAT", "NFSPROC3_FSSTAT"⟩,
    ⟨"NFS_PROGRAM", "NFS_V3", "NFSPROC3_FSINFO", "NFSPROC3_FSINFO"⟩,
    ⟨"NFS_PROGRAM", "NFS_V3", "NFSPROC3_PATHCONF", "NFSPROC3_PATHCONF"⟩,
    ⟨"NFS_PROGRAM", "NFS_V3", "NFSPROC3_COMMIT", "NFSPROC3_COMMIT"⟩]⟩,
   ⟨"MOUNT_PROGRAM_MOUNT_V3_handler", [⟨"MOUNTPROC3_NULL", none, none⟩,
    ⟨"MOUNTPROC3_MNT", (some (.named "Dirpath3")), (some (.named "Mountres3"))⟩,
    ⟨"MOUNTPROC3_DUMP", none, (some (.named "Mountopt3"))⟩,
    ⟨"MOUNTPROC3_UMNT", (some (.named "Dirpath3")), none⟩,
    ⟨"MOUNTPROC3_UMNTALL", none, none⟩,
    ⟨"MOUNTPROC3_EXPORT", none, (some (.named "Exportsopt3"))⟩],
   "MOUNT_PROGRAM_MOUNT_V3_handler_wrapper", "MOUNT_PROGRAM_MOUNT_V3_handler",
   [⟨"MOUNT_PROGRAM_MOUNT_V3_handler_wrapper", "MOUNTPROC3_NULL", [.varOutVoid, .callH "MOUNTPROC3_NULL" false false, .retOut]⟩,
    ⟨"MOUNT_PROGRAM_MOUNT_V3_handler_wrapper", "MOUNTPROC3_MNT", [.varIn (.named "Dirpath3"), .inXdr, .setErr, .retIfErr, .varOut (.named "Mountres3"), .callH "MOUNTPROC3_MNT" true true, .retOut]⟩,
    ⟨"MOUNT_PROGRAM_MOUNT_V3_handler_wrapper", "MOUNTPROC3_DUMP", [.varOut (.named "Mountopt3"), .callH "MOUNTPROC3_DUMP" true false, .retOut]⟩,
    ⟨"MOUNT_PROGRAM_MOUNT_V3_handler_wrapper", "MOUNTPROC3_UMNT", [.varIn (.named "Dirpath3"), .inXdr, .setErr, .retIfErr, .varOutVoid, .callH "MOUNTPROC3_UMNT" false true, .retOut]⟩,
    ⟨"MOUNT_PROGRAM_MOUNT_V3_handler_wrapper", "MOUNTPROC3_UMNTALL", [.varOutVoid, .callH "MOUNTPROC3_UMNTALL" false false, .retOut]⟩,
    ⟨"MOUNT_PROGRAM_MOUNT_V3_handler_wrapper", "MOUNTPROC3_EXPORT", [.varOut (.named "Exportsopt3"), .callH "MOUNTPROC3_EXPORT" true false, .retOut]⟩],
   "MOUNT_PROGRAM_MOUNT_V3_regs", "MOUNT_PROGRAM_MOUNT_V3_handler", "MOUNT_PROGRAM_MOUNT_V3_handler_wrapper",
   [⟨"MOUNT_PROGRAM", "MOUNT_V3", "MOUNTPROC3_NULL", "MOUNTPROC3_NULL"⟩,
    ⟨"MOUNT_PROGRAM", "MOUNT_V3", "MOUNTPROC3_MNT", "MOUNTPROC3_MNT"⟩,
    ⟨"MOUNT_PROGRAM", "MOUNT_V3", "MOUNTPROC3_DUMP", "MOUNTPROC3_DUMP"⟩,
    ⟨"MOUNT_PROGRAM", "MOUNT_V3", "MOUNTPROC3_UMNT", "MOUNTPROC3_UMNT"⟩,
    ⟨"MOUNT_PROGRAM", "MOUNT_V3", "MOUNTPROC3_UMNTALL", "MOUNTPROC3_UMNTALL"⟩,
    ⟨"MOUNT_PROGRAM", "MOUNT_V3", "MOUNTPROC3_EXPORT", "MOUNTPROC3_EXPORT"⟩]⟩]

end Verif.Inst.Rfc1813
