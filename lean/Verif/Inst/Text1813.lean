/-
The files rfc1813/prot.x, types.go and xdr.go, character for character.  Written by tools/embed.py.
-/
import Verif.Text.Scan

namespace Verif.Inst.Rfc1813
open Verif.Text

def protText0 : List (List Text) := [
  [t!"const PROGRAM             = 100003;\n"],
  [t!"const VERSION             = 3;\n"],
  [t!"const NFS3_FHSIZE         = 64;\n"],
  [t!"const NFS3_COOKIEVERFSIZE = 8;\n"],
  [t!"const NFS3_CREATEVERFSIZE = 8;\n"],
  [t!"const NFS3_WRITEVERFSIZE  = 8;\n"],
  [t!"\n"],
  [t!"typedef unsigned hyper uint64;\n"],
  [t!"typedef unsigned int uint32;\n"],
  [t!"typedef string filename3<>;\n"],
  [t!"typedef string nfspath3<>;\n"],
  [t!"typedef uint64 fileid3;\n"],
  [t!"typedef uint64 cookie3;\n"],
  [t!"typedef opaque cookieverf3[NFS3_COOKIEVERFSIZE];\n"],
  [t!"typedef opaque createverf3[NFS3_CREATEVERFSIZE];\n"],
  [t!"typedef opaque writeverf3[NFS3_WRITEVERFSIZE];\n"],
  [t!"typedef uint32 uid3;\n"],
  [t!"typedef uint32 gid3;\n"],
  [t!"typedef uint64 size3;\n"],
  [t!"typedef uint64 offset3;\n"],
  [t!"typedef uint32 mode3;\n"],
  [t!"typedef uint32 count3;\n"],
  [t!"\n"],
  [t!"enum nfsstat3 {\n"],
  [t!"  NFS3_OK             = 0,\n"],
  [t!"  NFS3ERR_PERM        = 1,\n"],
  [t!"  NFS3ERR_NOENT       = 2,\n"],
  [t!"  NFS3ERR_IO          = 5,\n"],
  [t!"  NFS3ERR_NXIO        = 6,\n"],
  [t!"  NFS3ERR_ACCES       = 13,\n"],
  [t!"  NFS3ERR_EXIST       = 17,\n"],
  [t!"  NFS3ERR_XDEV        = 18,\n"],
  [t!"  NFS3ERR_NODEV       = 19,\n"],
  [t!"  NFS3ERR_NOTDIR      = 20,\n"],
  [t!"  NFS3ERR_ISDIR       = 21,\n"],
  [t!"  NFS3ERR_INVAL       = 22,\n"],
  [t!"  NFS3ERR_FBIG        = 27,\n"],
  [t!"  NFS3ERR_NOSPC       = 28,\n"],
  [t!"  NFS3ERR_ROFS        = 30,\n"],
  [t!"  NFS3ERR_MLINK       = 31,\n"]]

def protText1 : List (List Text) := [
  [t!"  NFS3ERR_NAMETOOLONG = 63,\n"],
  [t!"  NFS3ERR_NOTEMPTY    = 66,\n"],
  [t!"  NFS3ERR_DQUOT       = 69,\n"],
  [t!"  NFS3ERR_STALE       = 70,\n"],
  [t!"  NFS3ERR_REMOTE      = 71,\n"],
  [t!"  NFS3ERR_BADHANDLE   = 10001,\n"],
  [t!"\n"],
  [t!"  NFS3ERR_NOT_SYNC    = 10002,\n"],
  [t!"  NFS3ERR_BAD_COOKIE  = 10003,\n"],
  [t!"  NFS3ERR_NOTSUPP     = 10004,\n"],
  [t!"  NFS3ERR_TOOSMALL    = 10005,\n"],
  [t!"  NFS3ERR_SERVERFAULT = 10006,\n"],
  [t!"  NFS3ERR_BADTYPE     = 10007,\n"],
  [t!"  NFS3ERR_JUKEBOX     = 10008 };\n"],
  [t!"\n"],
  [t!"enum ftype3 {\n"],
  [t!"  NF3REG    = 1,\n"],
  [t!"  NF3DIR    = 2,\n"],
  [t!"  NF3BLK    = 3,\n"],
  [t!"  NF3CHR    = 4,\n"],
  [t!"  NF3LNK    = 5,\n"],
  [t!"  NF3SOCK   = 6,\n"],
  [t!"  NF3FIFO   = 7 };\n"],
  [t!"\n"],
  [t!"struct specdata3 {\n"],
  [t!"  uint32     specdata1;\n"],
  [t!"  uint32     specdata2;\n"],
  [t!"};\n"],
  [t!"\n"],
  [t!"struct nfs_fh3 {\n"],
  [t!"  opaque       data<NFS3_FHSIZE>;\n"],
  [t!"};\n"],
  [t!"\n"],
  [t!"struct nfstime3 {\n"],
  [t!"  uint32   seconds;\n"],
  [t!"  uint32   nseconds;\n"],
  [t!"};\n"],
  [t!"\n"],
  [t!"struct fattr3 {\n"],
  [t!"  ftype3     ftype;\n"]]

def protText2 : List (List Text) := [
  [t!"  mode3      mode;\n"],
  [t!"  uint32     nlink;\n"],
  [t!"  uid3       uid;\n"],
  [t!"  gid3       gid;\n"],
  [t!"  size3      size;\n"],
  [t!"  size3      used;\n"],
  [t!"  specdata3  rdev;\n"],
  [t!"  uint64     fsid;\n"],
  [t!"  fileid3    fileid;\n"],
  [t!"  nfstime3   atime;\n"],
  [t!"  nfstime3   mtime;\n"],
  [t!"  nfstime3   ctime;\n"],
  [t!"};\n"],
  [t!"\n"],
  [t!"union post_op_attr switch (bool attributes_follow) {\n"],
  [t!"case TRUE:\n"],
  [t!"  fattr3   attributes;\n"],
  [t!"case FALSE:\n"],
  [t!"  void;\n"],
  [t!"};\n"],
  [t!"\n"],
  [t!"struct wcc_attr {\n"],
  [t!"  size3       size;\n"],
  [t!"  nfstime3    mtime;\n"],
  [t!"  nfstime3    ctime;\n"],
  [t!"};\n"],
  [t!"\n"],
  [t!"union pre_op_attr switch (bool attributes_follow) {\n"],
  [t!"case TRUE:\n"],
  [t!"  wcc_attr  attributes;\n"],
  [t!"case FALSE:\n"],
  [t!"  void;\n"],
  [t!"};\n"],
  [t!"\n"],
  [t!"struct wcc_data {\n"],
  [t!"  pre_op_attr    before;\n"],
  [t!"  post_op_attr   after;\n"],
  [t!"};\n"],
  [t!"\n"],
  [t!"union post_op_fh3 switch (bool handle_follows) {\n"]]

def protText3 : List (List Text) := [
  [t!"case TRUE:\n"],
  [t!"  nfs_fh3  handle;\n"],
  [t!"case FALSE:\n"],
  [t!"  void;\n"],
  [t!"};\n"],
  [t!"\n"],
  [t!"enum time_how {\n"],
  [t!"  DONT_CHANGE        = 0,\n"],
  [t!"  SET_TO_SERVER_TIME = 1,\n"],
  [t!"  SET_TO_CLIENT_TIME = 2 };\n"],
  [t!"\n"],
  [t!"union set_mode3 switch (bool set_it) {\n"],
  [t!"case TRUE:\n"],
  [t!"  mode3    mode;\n"],
  [t!"default:\n"],
  [t!"  void;\n"],
  [t!"};\n"],
  [t!"\n"],
  [t!"union set_uid3 switch (bool set_it) {\n"],
  [t!"case TRUE:\n"],
  [t!"  uid3     uid;\n"],
  [t!"default:\n"],
  [t!"  void;\n"],
  [t!"};\n"],
  [t!"\n"],
  [t!"union set_gid3 switch (bool set_it) {\n"],
  [t!"case TRUE:\n"],
  [t!"  gid3     gid;\n"],
  [t!"default:\n"],
  [t!"  void;\n"],
  [t!"};\n"],
  [t!"\n"],
  [t!"union set_size3 switch (bool set_it) {\n"],
  [t!"case TRUE:\n"],
  [t!"  size3    size;\n"],
  [t!"default:\n"],
  [t!"  void;\n"],
  [t!"};\n"],
  [t!"\n"],
  [t!"union set_atime switch (time_how set_it) {\n"]]

def protText4 : List (List Text) := [
  [t!"case SET_TO_CLIENT_TIME:\n"],
  [t!"  nfstime3  atime;\n"],
  [t!"default:\n"],
  [t!"  void;\n"],
  [t!"};\n"],
  [t!"\n"],
  [t!"union set_mtime switch (time_how set_it) {\n"],
  [t!"case SET_TO_CLIENT_TIME:\n"],
  [t!"  nfstime3  mtime;\n"],
  [t!"default:\n"],
  [t!"  void;\n"],
  [t!"};\n"],
  [t!"\n"],
  [t!"struct sattr3 {\n"],
  [t!"  set_mode3   mode;\n"],
  [t!"  set_uid3    uid;\n"],
  [t!"  set_gid3    gid;\n"],
  [t!"  set_size3   size;\n"],
  [t!"  set_atime   atime;\n"],
  [t!"  set_mtime   mtime;\n"],
  [t!"\n"],
  [t!"};\n"],
  [t!"\n"],
  [t!"struct diropargs3 {\n"],
  [t!"  nfs_fh3     dir;\n"],
  [t!"  filename3   name;\n"],
  [t!"};\n"],
  [t!"\n"],
  [t!"\n"],
  [t!"program NFS_PROGRAM {\n"],
  [t!"  version NFS_V3 {\n"],
  [t!"    void            NFSPROC3_NULL(void)                    = 0;\n"],
  [t!"    GETATTR3res     NFSPROC3_GETATTR(GETATTR3args)         = 1;\n"],
  [t!"    SETATTR3res     NFSPROC3_SETATTR(SETATTR3args)         = 2;\n"],
  [t!"    LOOKUP3res      NFSPROC3_LOOKUP(LOOKUP3args)           = 3;\n"],
  [t!"    ACCESS3res      NFSPROC3_ACCESS(ACCESS3args)           = 4;\n"],
  [t!"    READLINK3res    NFSPROC3_READLINK(READLINK3args)       = 5;\n"],
  [t!"    READ3res        NFSPROC3_READ(READ3args)               = 6;\n"],
  [t!"    WRITE3res       NFSPROC3_WRITE(WRITE3args)             = 7;\n"],
  [t!"    CREATE3res      NFSPROC3_CREATE(CREATE3args)           = 8;\n"]]

def protText5 : List (List Text) := [
  [t!"    MKDIR3res       NFSPROC3_MKDIR(MKDIR3args)             = 9;\n"],
  [t!"    SYMLINK3res     NFSPROC3_SYMLINK(SYMLINK3args)         = 10;\n"],
  [t!"    MKNOD3res       NFSPROC3_MKNOD(MKNOD3args)             = 11;\n"],
  [t!"    REMOVE3res      NFSPROC3_REMOVE(REMOVE3args)           = 12;\n"],
  [t!"    RMDIR3res       NFSPROC3_RMDIR(RMDIR3args)             = 13;\n"],
  [t!"    RENAME3res      NFSPROC3_RENAME(RENAME3args)           = 14;\n"],
  [t!"    LINK3res        NFSPROC3_LINK(LINK3args)               = 15;\n"],
  [t!"    READDIR3res     NFSPROC3_READDIR(READDIR3args)         = 16;\n"],
  [t!"    READDIRPLUS3res NFSPROC3_READDIRPLUS(READDIRPLUS3args) = 17;\n"],
  [t!"    FSSTAT3res      NFSPROC3_FSSTAT(FSSTAT3args)           = 18;\n"],
  [t!"    FSINFO3res      NFSPROC3_FSINFO(FSINFO3args)           = 19;\n"],
  [t!"    PATHCONF3res    NFSPROC3_PATHCONF(PATHCONF3args)       = 20;\n"],
  [t!"    COMMIT3res      NFSPROC3_COMMIT(COMMIT3args)           = 21;\n"],
  [t!"} = 3;\n"],
  [t!"} = 100003;\n"],
  [t!"\n"],
  [t!"struct GETATTR3args {\n"],
  [t!"  nfs_fh3  object;\n"],
  [t!"};\n"],
  [t!"\n"],
  [t!"struct GETATTR3resok {\n"],
  [t!"  fattr3   obj_attributes;\n"],
  [t!"};\n"],
  [t!"\n"],
  [t!"union GETATTR3res switch (nfsstat3 status) {\n"],
  [t!"case NFS3_OK:\n"],
  [t!"  GETATTR3resok  resok;\n"],
  [t!"default:\n"],
  [t!"  void;\n"],
  [t!"};\n"],
  [t!"\n"],
  [t!"union sattrguard3 switch (bool check) {\n"],
  [t!"case TRUE:\n"],
  [t!"  nfstime3  obj_ctime;\n"],
  [t!"case FALSE:\n"],
  [t!"  void;\n"],
  [t!"};\n"],
  [t!"\n"],
  [t!"struct SETATTR3args {\n"],
  [t!"  nfs_fh3      object;\n"]]

def protText6 : List (List Text) := [
  [t!"  sattr3       new_attributes;\n"],
  [t!"  sattrguard3  guard;\n"],
  [t!"};\n"],
  [t!"\n"],
  [t!"struct SETATTR3resok {\n"],
  [t!"  wcc_data  obj_wcc;\n"],
  [t!"};\n"],
  [t!"\n"],
  [t!"struct SETATTR3resfail {\n"],
  [t!"  wcc_data  obj_wcc;\n"],
  [t!"};\n"],
  [t!"\n"],
  [t!"union SETATTR3res switch (nfsstat3 status) {\n"],
  [t!"case NFS3_OK:\n"],
  [t!"  SETATTR3resok   resok;\n"],
  [t!"default:\n"],
  [t!"  SETATTR3resfail resfail;\n"],
  [t!"};\n"],
  [t!"\n"],
  [t!"struct LOOKUP3args {\n"],
  [t!"  diropargs3  what;\n"],
  [t!"};\n"],
  [t!"\n"],
  [t!"struct LOOKUP3resok {\n"],
  [t!"  nfs_fh3      object;\n"],
  [t!"  post_op_attr obj_attributes;\n"],
  [t!"  post_op_attr dir_attributes;\n"],
  [t!"};\n"],
  [t!"\n"],
  [t!"struct LOOKUP3resfail {\n"],
  [t!"  post_op_attr dir_attributes;\n"],
  [t!"};\n"],
  [t!"\n"],
  [t!"union LOOKUP3res switch (nfsstat3 status) {\n"],
  [t!"case NFS3_OK:\n"],
  [t!"  LOOKUP3resok    resok;\n"],
  [t!"default:\n"],
  [t!"  LOOKUP3resfail  resfail;\n"],
  [t!"};\n"],
  [t!"\n"]]

def protText7 : List (List Text) := [
  [t!"\n"],
  [t!"const ACCESS3_READ    = 0x0001;\n"],
  [t!"const ACCESS3_LOOKUP  = 0x0002;\n"],
  [t!"const ACCESS3_MODIFY  = 0x0004;\n"],
  [t!"const ACCESS3_EXTEND  = 0x0008;\n"],
  [t!"const ACCESS3_DELETE  = 0x0010;\n"],
  [t!"const ACCESS3_EXECUTE = 0x0020;\n"],
  [t!"\n"],
  [t!"struct ACCESS3args {\n"],
  [t!"  nfs_fh3  object;\n"],
  [t!"  uint32   access;\n"],
  [t!"};\n"],
  [t!"\n"],
  [t!"struct ACCESS3resok {\n"],
  [t!"  post_op_attr   obj_attributes;\n"],
  [t!"  uint32         access;\n"],
  [t!"};\n"],
  [t!"\n"],
  [t!"struct ACCESS3resfail {\n"],
  [t!"  post_op_attr   obj_attributes;\n"],
  [t!"};\n"],
  [t!"\n"],
  [t!"union ACCESS3res switch (nfsstat3 status) {\n"],
  [t!"case NFS3_OK:\n"],
  [t!"  ACCESS3resok   resok;\n"],
  [t!"default:\n"],
  [t!"  ACCESS3resfail resfail;\n"],
  [t!"};\n"],
  [t!"\n"],
  [t!"struct READLINK3args {\n"],
  [t!"  nfs_fh3  symlink;\n"],
  [t!"};\n"],
  [t!"\n"],
  [t!"struct READLINK3resok {\n"],
  [t!"  post_op_attr   symlink_attributes;\n"],
  [t!"  nfspath3       data;\n"],
  [t!"};\n"],
  [t!"\n"],
  [t!"struct READLINK3resfail {\n"],
  [t!"  post_op_attr   symlink_attributes;\n"]]

def protText8 : List (List Text) := [
  [t!"};\n"],
  [t!"\n"],
  [t!"union READLINK3res switch (nfsstat3 status) {\n"],
  [t!"case NFS3_OK:\n"],
  [t!"  READLINK3resok   resok;\n"],
  [t!"default:\n"],
  [t!"  READLINK3resfail resfail;\n"],
  [t!"};\n"],
  [t!"\n"],
  [t!"struct READ3args {\n"],
  [t!"  nfs_fh3  file;\n"],
  [t!"  offset3  offset;\n"],
  [t!"  count3   count;\n"],
  [t!"};\n"],
  [t!"\n"],
  [t!"struct READ3resok {\n"],
  [t!"  post_op_attr   file_attributes;\n"],
  [t!"  count3         count;\n"],
  [t!"  bool           eof;\n"],
  [t!"  opaque         data<>;\n"],
  [t!"};\n"],
  [t!"\n"],
  [t!"struct READ3resfail {\n"],
  [t!"  post_op_attr   file_attributes;\n"],
  [t!"};\n"],
  [t!"\n"],
  [t!"union READ3res switch (nfsstat3 status) {\n"],
  [t!"case NFS3_OK:\n"],
  [t!"  READ3resok   resok;\n"],
  [t!"default:\n"],
  [t!"  READ3resfail resfail;\n"],
  [t!"};\n"],
  [t!"\n"],
  [t!"enum stable_how {\n"],
  [t!"  UNSTABLE  = 0,\n"],
  [t!"  DATA_SYNC = 1,\n"],
  [t!"  FILE_SYNC = 2 };\n"],
  [t!"\n"],
  [t!"struct WRITE3args {\n"],
  [t!"  nfs_fh3     file;\n"]]

def protText9 : List (List Text) := [
  [t!"  offset3     offset;\n"],
  [t!"  count3      count;\n"],
  [t!"  stable_how  stable;\n"],
  [t!"  opaque      data<>;\n"],
  [t!"};\n"],
  [t!"\n"],
  [t!"struct WRITE3resok {\n"],
  [t!"  wcc_data    file_wcc;\n"],
  [t!"  count3      count;\n"],
  [t!"  stable_how  committed;\n"],
  [t!"  writeverf3  verf;\n"],
  [t!"};\n"],
  [t!"\n"],
  [t!"struct WRITE3resfail {\n"],
  [t!"  wcc_data    file_wcc;\n"],
  [t!"};\n"],
  [t!"\n"],
  [t!"union WRITE3res switch (nfsstat3 status) {\n"],
  [t!"case NFS3_OK:\n"],
  [t!"  WRITE3resok    resok;\n"],
  [t!"default:\n"],
  [t!"  WRITE3resfail  resfail;\n"],
  [t!"};\n"],
  [t!"\n"],
  [t!"\n"],
  [t!"enum createmode3 {\n"],
  [t!"  UNCHECKED = 0,\n"],
  [t!"  GUARDED   = 1,\n"],
  [t!"  EXCLUSIVE = 2 };\n"],
  [t!"\n"],
  [t!"union createhow3 switch (createmode3 mode) {\n"],
  [t!"case UNCHECKED:\n"],
  [t!"case GUARDED:\n"],
  [t!"  sattr3       obj_attributes;\n"],
  [t!"case EXCLUSIVE:\n"],
  [t!"  createverf3  verf;\n"],
  [t!"};\n"],
  [t!"\n"],
  [t!"struct CREATE3args {\n"],
  [t!"  diropargs3   where;\n"]]

def protText10 : List (List Text) := [
  [t!"  createhow3   how;\n"],
  [t!"};\n"],
  [t!"\n"],
  [t!"struct CREATE3resok {\n"],
  [t!"  post_op_fh3   obj;\n"],
  [t!"  post_op_attr  obj_attributes;\n"],
  [t!"  wcc_data      dir_wcc;\n"],
  [t!"};\n"],
  [t!"\n"],
  [t!"struct CREATE3resfail {\n"],
  [t!"  wcc_data      dir_wcc;\n"],
  [t!"};\n"],
  [t!"\n"],
  [t!"union CREATE3res switch (nfsstat3 status) {\n"],
  [t!"case NFS3_OK:\n"],
  [t!"  CREATE3resok    resok;\n"],
  [t!"default:\n"],
  [t!"  CREATE3resfail  resfail;\n"],
  [t!"};\n"],
  [t!"\n"],
  [t!"\n"],
  [t!"struct MKDIR3args {\n"],
  [t!"  diropargs3   where;\n"],
  [t!"  sattr3       attributes;\n"],
  [t!"};\n"],
  [t!"\n"],
  [t!"struct MKDIR3resok {\n"],
  [t!"  post_op_fh3   obj;\n"],
  [t!"  post_op_attr  obj_attributes;\n"],
  [t!"  wcc_data      dir_wcc;\n"],
  [t!"};\n"],
  [t!"\n"],
  [t!"struct MKDIR3resfail {\n"],
  [t!"  wcc_data      dir_wcc;\n"],
  [t!"};\n"],
  [t!"\n"],
  [t!"union MKDIR3res switch (nfsstat3 status) {\n"],
  [t!"case NFS3_OK:\n"],
  [t!"  MKDIR3resok   resok;\n"],
  [t!"default:\n"]]

def protText11 : List (List Text) := [
  [t!"  MKDIR3resfail resfail;\n"],
  [t!"};\n"],
  [t!"\n"],
  [t!"\n"],
  [t!"struct symlinkdata3 {\n"],
  [t!"  sattr3    symlink_attributes;\n"],
  [t!"  nfspath3  symlink_data;\n"],
  [t!"};\n"],
  [t!"\n"],
  [t!"struct SYMLINK3args {\n"],
  [t!"  diropargs3    where;\n"],
  [t!"  symlinkdata3  symlink;\n"],
  [t!"};\n"],
  [t!"\n"],
  [t!"struct SYMLINK3resok {\n"],
  [t!"  post_op_fh3   obj;\n"],
  [t!"  post_op_attr  obj_attributes;\n"],
  [t!"  wcc_data      dir_wcc;\n"],
  [t!"};\n"],
  [t!"\n"],
  [t!"struct SYMLINK3resfail {\n"],
  [t!"  wcc_data      dir_wcc;\n"],
  [t!"};\n"],
  [t!"\n"],
  [t!"union SYMLINK3res switch (nfsstat3 status) {\n"],
  [t!"case NFS3_OK:\n"],
  [t!"  SYMLINK3resok   resok;\n"],
  [t!"default:\n"],
  [t!"  SYMLINK3resfail resfail;\n"],
  [t!"};\n"],
  [t!"\n"],
  [t!"\n"],
  [t!"struct devicedata3 {\n"],
  [t!"  sattr3     dev_attributes;\n"],
  [t!"  specdata3  spec;\n"],
  [t!"};\n"],
  [t!"\n"],
  [t!"union mknoddata3 switch (ftype3 ftype) {\n"],
  [t!"case NF3CHR:\n"],
  [t!"case NF3BLK:\n"]]

def protText12 : List (List Text) := [
  [t!"  devicedata3  device;\n"],
  [t!"case NF3SOCK:\n"],
  [t!"case NF3FIFO:\n"],
  [t!"  sattr3       pipe_attributes;\n"],
  [t!"default:\n"],
  [t!"  void;\n"],
  [t!"};\n"],
  [t!"\n"],
  [t!"struct MKNOD3args {\n"],
  [t!"  diropargs3   where;\n"],
  [t!"  mknoddata3   what;\n"],
  [t!"};\n"],
  [t!"\n"],
  [t!"struct MKNOD3resok {\n"],
  [t!"  post_op_fh3   obj;\n"],
  [t!"  post_op_attr  obj_attributes;\n"],
  [t!"  wcc_data      dir_wcc;\n"],
  [t!"};\n"],
  [t!"\n"],
  [t!"struct MKNOD3resfail {\n"],
  [t!"  wcc_data      dir_wcc;\n"],
  [t!"};\n"],
  [t!"\n"],
  [t!"union MKNOD3res switch (nfsstat3 status) {\n"],
  [t!"case NFS3_OK:\n"],
  [t!"  MKNOD3resok   resok;\n"],
  [t!"default:\n"],
  [t!"  MKNOD3resfail resfail;\n"],
  [t!"};\n"],
  [t!"\n"],
  [t!"struct REMOVE3args {\n"],
  [t!"  diropargs3  object;\n"],
  [t!"};\n"],
  [t!"\n"],
  [t!"struct REMOVE3resok {\n"],
  [t!"  wcc_data    dir_wcc;\n"],
  [t!"};\n"],
  [t!"\n"],
  [t!"struct REMOVE3resfail {\n"],
  [t!"  wcc_data    dir_wcc;\n"]]

def protText13 : List (List Text) := [
  [t!"};\n"],
  [t!"\n"],
  [t!"union REMOVE3res switch (nfsstat3 status) {\n"],
  [t!"case NFS3_OK:\n"],
  [t!"  REMOVE3resok   resok;\n"],
  [t!"default:\n"],
  [t!"  REMOVE3resfail resfail;\n"],
  [t!"};\n"],
  [t!"\n"],
  [t!"\n"],
  [t!"struct RMDIR3args {\n"],
  [t!"  diropargs3  object;\n"],
  [t!"};\n"],
  [t!"\n"],
  [t!"struct RMDIR3resok {\n"],
  [t!"  wcc_data    dir_wcc;\n"],
  [t!"};\n"],
  [t!"\n"],
  [t!"struct RMDIR3resfail {\n"],
  [t!"  wcc_data    dir_wcc;\n"],
  [t!"};\n"],
  [t!"\n"],
  [t!"union RMDIR3res switch (nfsstat3 status) {\n"],
  [t!"case NFS3_OK:\n"],
  [t!"  RMDIR3resok   resok;\n"],
  [t!"default:\n"],
  [t!"  RMDIR3resfail resfail;\n"],
  [t!"};\n"],
  [t!"\n"],
  [t!"struct RENAME3args {\n"],
  [t!"  diropargs3   from;\n"],
  [t!"  diropargs3   to;\n"],
  [t!"};\n"],
  [t!"\n"],
  [t!"struct RENAME3resok {\n"],
  [t!"  wcc_data     fromdir_wcc;\n"],
  [t!"  wcc_data     todir_wcc;\n"],
  [t!"};\n"],
  [t!"\n"],
  [t!"struct RENAME3resfail {\n"]]

def protText14 : List (List Text) := [
  [t!"  wcc_data     fromdir_wcc;\n"],
  [t!"  wcc_data     todir_wcc;\n"],
  [t!"};\n"],
  [t!"\n"],
  [t!"union RENAME3res switch (nfsstat3 status) {\n"],
  [t!"case NFS3_OK:\n"],
  [t!"  RENAME3resok   resok;\n"],
  [t!"default:\n"],
  [t!"  RENAME3resfail resfail;\n"],
  [t!"};\n"],
  [t!"\n"],
  [t!"struct LINK3args {\n"],
  [t!"  nfs_fh3     file;\n"],
  [t!"  diropargs3  link;\n"],
  [t!"};\n"],
  [t!"\n"],
  [t!"struct LINK3resok {\n"],
  [t!"  post_op_attr   file_attributes;\n"],
  [t!"  wcc_data       linkdir_wcc;\n"],
  [t!"};\n"],
  [t!"\n"],
  [t!"struct LINK3resfail {\n"],
  [t!"  post_op_attr   file_attributes;\n"],
  [t!"  wcc_data       linkdir_wcc;\n"],
  [t!"};\n"],
  [t!"\n"],
  [t!"union LINK3res switch (nfsstat3 status) {\n"],
  [t!"case NFS3_OK:\n"],
  [t!"\n"],
  [t!"  LINK3resok    resok;\n"],
  [t!"default:\n"],
  [t!"  LINK3resfail  resfail;\n"],
  [t!"};\n"],
  [t!"\n"],
  [t!"struct READDIR3args {\n"],
  [t!"  nfs_fh3      dir;\n"],
  [t!"  cookie3      cookie;\n"],
  [t!"  cookieverf3  cookieverf;\n"],
  [t!"  count3       count;\n"],
  [t!"};\n"]]

def protText15 : List (List Text) := [
  [t!"\n"],
  [t!"struct entry3 {\n"],
  [t!"  fileid3      fileid;\n"],
  [t!"  filename3    name;\n"],
  [t!"  cookie3      cookie;\n"],
  [t!"  entry3       *nextentry;\n"],
  [t!"};\n"],
  [t!"\n"],
  [t!"struct dirlist3 {\n"],
  [t!"  entry3       *entries;\n"],
  [t!"  bool         eof;\n"],
  [t!"};\n"],
  [t!"\n"],
  [t!"struct READDIR3resok {\n"],
  [t!"  post_op_attr dir_attributes;\n"],
  [t!"  cookieverf3  cookieverf;\n"],
  [t!"  dirlist3     reply;\n"],
  [t!"};\n"],
  [t!"\n"],
  [t!"struct READDIR3resfail {\n"],
  [t!"  post_op_attr dir_attributes;\n"],
  [t!"};\n"],
  [t!"\n"],
  [t!"union READDIR3res switch (nfsstat3 status) {\n"],
  [t!"case NFS3_OK:\n"],
  [t!"  READDIR3resok   resok;\n"],
  [t!"default:\n"],
  [t!"  READDIR3resfail resfail;\n"],
  [t!"};\n"],
  [t!"\n"],
  [t!"struct READDIRPLUS3args {\n"],
  [t!"  nfs_fh3      dir;\n"],
  [t!"  cookie3      cookie;\n"],
  [t!"  cookieverf3  cookieverf;\n"],
  [t!"  count3       dircount;\n"],
  [t!"  count3       maxcount;\n"],
  [t!"};\n"],
  [t!"\n"],
  [t!"struct entryplus3 {\n"],
  [t!"  fileid3      fileid;\n"]]

def protText16 : List (List Text) := [
  [t!"  filename3    name;\n"],
  [t!"  cookie3      cookie;\n"],
  [t!"  post_op_attr name_attributes;\n"],
  [t!"  post_op_fh3  name_handle;\n"],
  [t!"  entryplus3   *nextentry;\n"],
  [t!"};\n"],
  [t!"\n"],
  [t!"struct dirlistplus3 {\n"],
  [t!"  entryplus3   *entries;\n"],
  [t!"  bool         eof;\n"],
  [t!"};\n"],
  [t!"\n"],
  [t!"struct READDIRPLUS3resok {\n"],
  [t!"  post_op_attr dir_attributes;\n"],
  [t!"  cookieverf3  cookieverf;\n"],
  [t!"  dirlistplus3 reply;\n"],
  [t!"};\n"],
  [t!"\n"],
  [t!"struct READDIRPLUS3resfail {\n"],
  [t!"  post_op_attr dir_attributes;\n"],
  [t!"};\n"],
  [t!"\n"],
  [t!"union READDIRPLUS3res switch (nfsstat3 status) {\n"],
  [t!"case NFS3_OK:\n"],
  [t!"  READDIRPLUS3resok   resok;\n"],
  [t!"default:\n"],
  [t!"  READDIRPLUS3resfail resfail;\n"],
  [t!"};\n"],
  [t!"\n"],
  [t!"struct FSSTAT3args {\n"],
  [t!"  nfs_fh3   fsroot;\n"],
  [t!"};\n"],
  [t!"\n"],
  [t!"struct FSSTAT3resok {\n"],
  [t!"  post_op_attr obj_attributes;\n"],
  [t!"  size3        tbytes;\n"],
  [t!"  size3        fbytes;\n"],
  [t!"  size3        abytes;\n"],
  [t!"  size3        tfiles;\n"],
  [t!"  size3        ffiles;\n"]]

def protText17 : List (List Text) := [
  [t!"  size3        afiles;\n"],
  [t!"  uint32       invarsec;\n"],
  [t!"};\n"],
  [t!"\n"],
  [t!"struct FSSTAT3resfail {\n"],
  [t!"  post_op_attr obj_attributes;\n"],
  [t!"};\n"],
  [t!"\n"],
  [t!"union FSSTAT3res switch (nfsstat3 status) {\n"],
  [t!"case NFS3_OK:\n"],
  [t!"  FSSTAT3resok   resok;\n"],
  [t!"default:\n"],
  [t!"  FSSTAT3resfail resfail;\n"],
  [t!"};\n"],
  [t!"\n"],
  [t!"const FSF3_LINK        = 0x0001;\n"],
  [t!"const FSF3_SYMLINK     = 0x0002;\n"],
  [t!"const FSF3_HOMOGENEOUS = 0x0008;\n"],
  [t!"const FSF3_CANSETTIME  = 0x0010;\n"],
  [t!"\n"],
  [t!"struct FSINFO3args {\n"],
  [t!"  nfs_fh3   fsroot;\n"],
  [t!"};\n"],
  [t!"\n"],
  [t!"struct FSINFO3resok {\n"],
  [t!"  post_op_attr obj_attributes;\n"],
  [t!"  uint32       rtmax;\n"],
  [t!"  uint32       rtpref;\n"],
  [t!"  uint32       rtmult;\n"],
  [t!"  uint32       wtmax;\n"],
  [t!"  uint32       wtpref;\n"],
  [t!"  uint32       wtmult;\n"],
  [t!"  uint32       dtpref;\n"],
  [t!"\n"],
  [t!"  size3        maxfilesize;\n"],
  [t!"  nfstime3     time_delta;\n"],
  [t!"  uint32       properties;\n"],
  [t!"};\n"],
  [t!"\n"],
  [t!"struct FSINFO3resfail {\n"]]

def protText18 : List (List Text) := [
  [t!"  post_op_attr obj_attributes;\n"],
  [t!"};\n"],
  [t!"\n"],
  [t!"union FSINFO3res switch (nfsstat3 status) {\n"],
  [t!"case NFS3_OK:\n"],
  [t!"  FSINFO3resok   resok;\n"],
  [t!"default:\n"],
  [t!"  FSINFO3resfail resfail;\n"],
  [t!"};\n"],
  [t!"\n"],
  [t!"struct PATHCONF3args {\n"],
  [t!"  nfs_fh3   object;\n"],
  [t!"};\n"],
  [t!"\n"],
  [t!"struct PATHCONF3resok {\n"],
  [t!"  post_op_attr obj_attributes;\n"],
  [t!"  uint32       linkmax;\n"],
  [t!"  uint32       name_max;\n"],
  [t!"  bool         no_trunc;\n"],
  [t!"  bool         chown_restricted;\n"],
  [t!"  bool         case_insensitive;\n"],
  [t!"  bool         case_preserving;\n"],
  [t!"};\n"],
  [t!"\n"],
  [t!"struct PATHCONF3resfail {\n"],
  [t!"  post_op_attr obj_attributes;\n"],
  [t!"};\n"],
  [t!"\n"],
  [t!"union PATHCONF3res switch (nfsstat3 status) {\n"],
  [t!"case NFS3_OK:\n"],
  [t!"  PATHCONF3resok   resok;\n"],
  [t!"default:\n"],
  [t!"  PATHCONF3resfail resfail;\n"],
  [t!"};\n"],
  [t!"\n"],
  [t!"struct COMMIT3args {\n"],
  [t!"  nfs_fh3    file;\n"],
  [t!"  offset3    offset;\n"],
  [t!"  count3     count;\n"],
  [t!"};\n"]]

def protText19 : List (List Text) := [
  [t!"\n"],
  [t!"struct COMMIT3resok {\n"],
  [t!"  wcc_data   file_wcc;\n"],
  [t!"  writeverf3 verf;\n"],
  [t!"};\n"],
  [t!"\n"],
  [t!"struct COMMIT3resfail {\n"],
  [t!"  wcc_data   file_wcc;\n"],
  [t!"};\n"],
  [t!"\n"],
  [t!"union COMMIT3res switch (nfsstat3 status) {\n"],
  [t!"case NFS3_OK:\n"],
  [t!"  COMMIT3resok   resok;\n"],
  [t!"default:\n"],
  [t!"  COMMIT3resfail resfail;\n"],
  [t!"};\n"],
  [t!"\n"],
  [t!"\n"],
  [t!"const MNTPATHLEN3 = 1024;   /* Maximum bytes in a path name */\n"],
  [t!"const MNTNAMLEN3  = 255;    /* Maximum bytes in a name */\n"],
  [t!"const FHSIZE3    = 64;      /* Maximum bytes in a V3 file handle */\n"],
  [t!"\n"],
  [t!"typedef opaque fhandle3<FHSIZE3>;\n"],
  [t!"typedef string dirpath3<MNTPATHLEN3>;\n"],
  [t!"typedef string name3<MNTNAMLEN3>;\n"],
  [t!"\n"],
  [t!"enum mountstat3 {\n"],
  [t!"   MNT3_OK = 0,                 /* no error */\n"],
  [t!"   MNT3ERR_PERM = 1,            /* Not owner */\n"],
  [t!"   MNT3ERR_NOENT = 2,           /* No such file or directory */\n"],
  [t!"   MNT3ERR_IO = 5,              /* I/O error */\n"],
  [t!"   MNT3ERR_ACCES = 13,          /* Permission denied */\n"],
  [t!"   MNT3ERR_NOTDIR = 20,         /* Not a directory */\n"],
  [t!"   MNT3ERR_INVAL = 22,          /* Invalid argument */\n"],
  [t!"   MNT3ERR_NAMETOOLONG = 63,    /* Filename too long */\n"],
  [t!"   MNT3ERR_NOTSUPP = 10004,     /* Operation not supported */\n"],
  [t!"   MNT3ERR_SERVERFAULT = 10006  /* A failure on the server */ };\n"],
  [t!"\n"],
  [t!"\n"],
  [t!"program MOUNT_PROGRAM {\n"]]

def protText20 : List (List Text) := [
  [t!"  version MOUNT_V3 {\n"],
  [t!"    void        MOUNTPROC3_NULL(void)     = 0;\n"],
  [t!"    mountres3   MOUNTPROC3_MNT(dirpath3)  = 1;\n"],
  [t!"    mountopt3   MOUNTPROC3_DUMP(void)     = 2;\n"],
  [t!"    void        MOUNTPROC3_UMNT(dirpath3) = 3;\n"],
  [t!"    void        MOUNTPROC3_UMNTALL(void)  = 4;\n"],
  [t!"    exportsopt3 MOUNTPROC3_EXPORT(void)   = 5;\n"],
  [t!"  } = 3;\n"],
  [t!"} = 100005;\n"],
  [t!"\n"],
  [t!"struct mountres3_ok {\n"],
  [t!"  fhandle3     fhandle;\n"],
  [t!"  unsigned int auth_flavors<>;\n"],
  [t!"};\n"],
  [t!"\n"],
  [t!"union mountres3 switch (mountstat3 fhs_status) {\n"],
  [t!"case MNT3_OK:\n"],
  [t!"  mountres3_ok  mountinfo;\n"],
  [t!"default:\n"],
  [t!"  void;\n"],
  [t!"};\n"],
  [t!"\n"],
  [t!"struct mount3 {\n"],
  [t!"  name3    ml_hostname;\n"],
  [t!"  dirpath3 ml_directory;\n"],
  [t!"  mount3   *ml_next;\n"],
  [t!"};\n"],
  [t!"\n"],
  [t!"typedef mount3 *mountopt3;\n"],
  [t!"\n"],
  [t!"struct groups3 {\n"],
  [t!"  name3   gr_name;\n"],
  [t!"  groups3 *gr_next;\n"],
  [t!"};\n"],
  [t!"\n"],
  [t!"struct exports3 {\n"],
  [t!"  dirpath3 ex_dir;\n"],
  [t!"  groups3  *ex_groups;\n"],
  [t!"  exports3 *ex_next;\n"],
  [t!"};\n"]]

def protText21 : List (List Text) := [
  [t!"\n"],
  [t!"typedef exports3 *exportsopt3;\n"]]

/-- rfc1813/prot.x -/
def protText : List (List Text) := protText0 ++ protText1 ++ protText2 ++ protText3 ++ protText4 ++ protText5 ++ protText6 ++ protText7 ++ protText8 ++ protText9 ++ protText10 ++ protText11 ++ protText12 ++ protText13 ++ protText14 ++ protText15 ++ protText16 ++ protText17 ++ protText18 ++ protText19 ++ protText20 ++ protText21

def typesText0 : List (List Text) := [
  [t!"package rfc1813\n",
   t!"\n"],
  [t!"const PROGRAM uint32 = 100003\n"],
  [t!"const VERSION uint32 = 3\n"],
  [t!"const NFS3_FHSIZE uint32 = 64\n"],
  [t!"const NFS3_COOKIEVERFSIZE uint32 = 8\n"],
  [t!"const NFS3_CREATEVERFSIZE uint32 = 8\n"],
  [t!"const NFS3_WRITEVERFSIZE uint32 = 8\n",
   t!"\n"],
  [t!"type Uint64 uint64\n"],
  [t!"type Uint32 uint32\n"],
  [t!"type Filename3 string\n"],
  [t!"type Nfspath3 string\n"],
  [t!"type Fileid3 Uint64\n"],
  [t!"type Cookie3 Uint64\n"],
  [t!"type Cookieverf3 [NFS3_COOKIEVERFSIZE]byte\n"],
  [t!"type Createverf3 [NFS3_CREATEVERFSIZE]byte\n"],
  [t!"type Writeverf3 [NFS3_WRITEVERFSIZE]byte\n"],
  [t!"type Uid3 Uint32\n"],
  [t!"type Gid3 Uint32\n"],
  [t!"type Size3 Uint64\n"],
  [t!"type Offset3 Uint64\n"],
  [t!"type Mode3 Uint32\n"],
  [t!"type Count3 Uint32\n"],
  [t!"type Nfsstat3 uint32\n",
   t!"\n"],
  [t!"const NFS3_OK Nfsstat3 = 0\n"],
  [t!"const NFS3ERR_PERM Nfsstat3 = 1\n"],
  [t!"const NFS3ERR_NOENT Nfsstat3 = 2\n"],
  [t!"const NFS3ERR_IO Nfsstat3 = 5\n"],
  [t!"const NFS3ERR_NXIO Nfsstat3 = 6\n"],
  [t!"const NFS3ERR_ACCES Nfsstat3 = 13\n"],
  [t!"const NFS3ERR_EXIST Nfsstat3 = 17\n"],
  [t!"const NFS3ERR_XDEV Nfsstat3 = 18\n"],
  [t!"const NFS3ERR_NODEV Nfsstat3 = 19\n"],
  [t!"const NFS3ERR_NOTDIR Nfsstat3 = 20\n"],
  [t!"const NFS3ERR_ISDIR Nfsstat3 = 21\n"],
  [t!"const NFS3ERR_INVAL Nfsstat3 = 22\n"],
  [t!"const NFS3ERR_FBIG Nfsstat3 = 27\n"],
  [t!"const NFS3ERR_NOSPC Nfsstat3 = 28\n"],
  [t!"const NFS3ERR_ROFS Nfsstat3 = 30\n"],
  [t!"const NFS3ERR_MLINK Nfsstat3 = 31\n"],
  [t!"const NFS3ERR_NAMETOOLONG Nfsstat3 = 63\n"]]

def typesText1 : List (List Text) := [
  [t!"const NFS3ERR_NOTEMPTY Nfsstat3 = 66\n"],
  [t!"const NFS3ERR_DQUOT Nfsstat3 = 69\n"],
  [t!"const NFS3ERR_STALE Nfsstat3 = 70\n"],
  [t!"const NFS3ERR_REMOTE Nfsstat3 = 71\n"],
  [t!"const NFS3ERR_BADHANDLE Nfsstat3 = 10001\n"],
  [t!"const NFS3ERR_NOT_SYNC Nfsstat3 = 10002\n"],
  [t!"const NFS3ERR_BAD_COOKIE Nfsstat3 = 10003\n"],
  [t!"const NFS3ERR_NOTSUPP Nfsstat3 = 10004\n"],
  [t!"const NFS3ERR_TOOSMALL Nfsstat3 = 10005\n"],
  [t!"const NFS3ERR_SERVERFAULT Nfsstat3 = 10006\n"],
  [t!"const NFS3ERR_BADTYPE Nfsstat3 = 10007\n"],
  [t!"const NFS3ERR_JUKEBOX Nfsstat3 = 10008\n",
   t!"\n"],
  [t!"type Ftype3 uint32\n",
   t!"\n"],
  [t!"const NF3REG Ftype3 = 1\n"],
  [t!"const NF3DIR Ftype3 = 2\n"],
  [t!"const NF3BLK Ftype3 = 3\n"],
  [t!"const NF3CHR Ftype3 = 4\n"],
  [t!"const NF3LNK Ftype3 = 5\n"],
  [t!"const NF3SOCK Ftype3 = 6\n"],
  [t!"const NF3FIFO Ftype3 = 7\n",
   t!"\n"],
  [t!"type Specdata3 struct {\n",
   t!"\tSpecdata1 Uint32\n",
   t!"\tSpecdata2 Uint32\n",
   t!"}\n"],
  [t!"type Nfs_fh3 struct {\n",
   t!"\tData []byte\n",
   t!"}\n"],
  [t!"type Nfstime3 struct {\n",
   t!"\tSeconds  Uint32\n",
   t!"\tNseconds Uint32\n",
   t!"}\n"],
  [t!"type Fattr3 struct {\n",
   t!"\tFtype  Ftype3\n",
   t!"\tMode   Mode3\n",
   t!"\tNlink  Uint32\n",
   t!"\tUid    Uid3\n",
   t!"\tGid    Gid3\n",
   t!"\tSize   Size3\n",
   t!"\tUsed   Size3\n",
   t!"\tRdev   Specdata3\n",
   t!"\tFsid   Uint64\n",
   t!"\tFileid Fileid3\n",
   t!"\tAtime  Nfstime3\n",
   t!"\tMtime  Nfstime3\n",
   t!"\tCtime  Nfstime3\n",
   t!"}\n"],
  [t!"type Post_op_attr struct {\n",
   t!"\tAttributes_follow bool\n",
   t!"\tAttributes        Fattr3\n",
   t!"}\n"],
  [t!"type Wcc_attr struct {\n",
   t!"\tSize  Size3\n",
   t!"\tMtime Nfstime3\n",
   t!"\tCtime Nfstime3\n",
   t!"}\n"],
  [t!"type Pre_op_attr struct {\n",
   t!"\tAttributes_follow bool\n",
   t!"\tAttributes        Wcc_attr\n",
   t!"}\n"],
  [t!"type Wcc_data struct {\n",
   t!"\tBefore Pre_op_attr\n",
   t!"\tAfter  Post_op_attr\n",
   t!"}\n"],
  [t!"type Post_op_fh3 struct {\n",
   t!"\tHandle_follows bool\n",
   t!"\tHandle         Nfs_fh3\n",
   t!"}\n"],
  [t!"type Time_how uint32\n",
   t!"\n"],
  [t!"const DONT_CHANGE Time_how = 0\n"],
  [t!"const SET_TO_SERVER_TIME Time_how = 1\n"],
  [t!"const SET_TO_CLIENT_TIME Time_how = 2\n",
   t!"\n"],
  [t!"type Set_mode3 struct {\n",
   t!"\tSet_it bool\n",
   t!"\tMode   Mode3\n",
   t!"}\n"],
  [t!"type Set_uid3 struct {\n",
   t!"\tSet_it bool\n",
   t!"\tUid    Uid3\n",
   t!"}\n"],
  [t!"type Set_gid3 struct {\n",
   t!"\tSet_it bool\n",
   t!"\tGid    Gid3\n",
   t!"}\n"],
  [t!"type Set_size3 struct {\n",
   t!"\tSet_it bool\n",
   t!"\tSize   Size3\n",
   t!"}\n"],
  [t!"type Set_atime struct {\n",
   t!"\tSet_it Time_how\n",
   t!"\tAtime  Nfstime3\n",
   t!"}\n"],
  [t!"type Set_mtime struct {\n",
   t!"\tSet_it Time_how\n",
   t!"\tMtime  Nfstime3\n",
   t!"}\n"],
  [t!"type Sattr3 struct {\n",
   t!"\tMode  Set_mode3\n",
   t!"\tUid   Set_uid3\n",
   t!"\tGid   Set_gid3\n",
   t!"\tSize  Set_size3\n",
   t!"\tAtime Set_atime\n",
   t!"\tMtime Set_mtime\n",
   t!"}\n"]]

def typesText2 : List (List Text) := [
  [t!"type Diropargs3 struct {\n",
   t!"\tDir  Nfs_fh3\n",
   t!"\tName Filename3\n",
   t!"}\n",
   t!"\n"],
  [t!"const NFS_PROGRAM uint32 = 100003\n"],
  [t!"const NFS_V3 uint32 = 3\n"],
  [t!"const NFSPROC3_NULL uint32 = 0\n"],
  [t!"const NFSPROC3_GETATTR uint32 = 1\n"],
  [t!"const NFSPROC3_SETATTR uint32 = 2\n"],
  [t!"const NFSPROC3_LOOKUP uint32 = 3\n"],
  [t!"const NFSPROC3_ACCESS uint32 = 4\n"],
  [t!"const NFSPROC3_READLINK uint32 = 5\n"],
  [t!"const NFSPROC3_READ uint32 = 6\n"],
  [t!"const NFSPROC3_WRITE uint32 = 7\n"],
  [t!"const NFSPROC3_CREATE uint32 = 8\n"],
  [t!"const NFSPROC3_MKDIR uint32 = 9\n"],
  [t!"const NFSPROC3_SYMLINK uint32 = 10\n"],
  [t!"const NFSPROC3_MKNOD uint32 = 11\n"],
  [t!"const NFSPROC3_REMOVE uint32 = 12\n"],
  [t!"const NFSPROC3_RMDIR uint32 = 13\n"],
  [t!"const NFSPROC3_RENAME uint32 = 14\n"],
  [t!"const NFSPROC3_LINK uint32 = 15\n"],
  [t!"const NFSPROC3_READDIR uint32 = 16\n"],
  [t!"const NFSPROC3_READDIRPLUS uint32 = 17\n"],
  [t!"const NFSPROC3_FSSTAT uint32 = 18\n"],
  [t!"const NFSPROC3_FSINFO uint32 = 19\n"],
  [t!"const NFSPROC3_PATHCONF uint32 = 20\n"],
  [t!"const NFSPROC3_COMMIT uint32 = 21\n",
   t!"\n"],
  [t!"type GETATTR3args struct {\n",
   t!"\tObject Nfs_fh3\n",
   t!"}\n"],
  [t!"type GETATTR3resok struct {\n",
   t!"\tObj_attributes Fattr3\n",
   t!"}\n"],
  [t!"type GETATTR3res struct {\n",
   t!"\tStatus Nfsstat3\n",
   t!"\tResok  GETATTR3resok\n",
   t!"}\n"],
  [t!"type Sattrguard3 struct {\n",
   t!"\tCheck     bool\n",
   t!"\tObj_ctime Nfstime3\n",
   t!"}\n"],
  [t!"type SETATTR3args struct {\n",
   t!"\tObject         Nfs_fh3\n",
   t!"\tNew_attributes Sattr3\n",
   t!"\tGuard          Sattrguard3\n",
   t!"}\n"],
  [t!"type SETATTR3resok struct {\n",
   t!"\tObj_wcc Wcc_data\n",
   t!"}\n"],
  [t!"type SETATTR3resfail struct {\n",
   t!"\tObj_wcc Wcc_data\n",
   t!"}\n"],
  [t!"type SETATTR3res struct {\n",
   t!"\tStatus  Nfsstat3\n",
   t!"\tResok   SETATTR3resok\n",
   t!"\tResfail SETATTR3resfail\n",
   t!"}\n"],
  [t!"type LOOKUP3args struct {\n",
   t!"\tWhat Diropargs3\n",
   t!"}\n"],
  [t!"type LOOKUP3resok struct {\n",
   t!"\tObject         Nfs_fh3\n",
   t!"\tObj_attributes Post_op_attr\n",
   t!"\tDir_attributes Post_op_attr\n",
   t!"}\n"],
  [t!"type LOOKUP3resfail struct {\n",
   t!"\tDir_attributes Post_op_attr\n",
   t!"}\n"],
  [t!"type LOOKUP3res struct {\n",
   t!"\tStatus  Nfsstat3\n",
   t!"\tResok   LOOKUP3resok\n",
   t!"\tResfail LOOKUP3resfail\n",
   t!"}\n",
   t!"\n"],
  [t!"const ACCESS3_READ uint32 = 0x0001\n"],
  [t!"const ACCESS3_LOOKUP uint32 = 0x0002\n"],
  [t!"const ACCESS3_MODIFY uint32 = 0x0004\n"]]

def typesText3 : List (List Text) := [
  [t!"const ACCESS3_EXTEND uint32 = 0x0008\n"],
  [t!"const ACCESS3_DELETE uint32 = 0x0010\n"],
  [t!"const ACCESS3_EXECUTE uint32 = 0x0020\n",
   t!"\n"],
  [t!"type ACCESS3args struct {\n",
   t!"\tObject Nfs_fh3\n",
   t!"\tAccess Uint32\n",
   t!"}\n"],
  [t!"type ACCESS3resok struct {\n",
   t!"\tObj_attributes Post_op_attr\n",
   t!"\tAccess         Uint32\n",
   t!"}\n"],
  [t!"type ACCESS3resfail struct {\n",
   t!"\tObj_attributes Post_op_attr\n",
   t!"}\n"],
  [t!"type ACCESS3res struct {\n",
   t!"\tStatus  Nfsstat3\n",
   t!"\tResok   ACCESS3resok\n",
   t!"\tResfail ACCESS3resfail\n",
   t!"}\n"],
  [t!"type READLINK3args struct {\n",
   t!"\tSymlink Nfs_fh3\n",
   t!"}\n"],
  [t!"type READLINK3resok struct {\n",
   t!"\tSymlink_attributes Post_op_attr\n",
   t!"\tData               Nfspath3\n",
   t!"}\n"],
  [t!"type READLINK3resfail struct {\n",
   t!"\tSymlink_attributes Post_op_attr\n",
   t!"}\n"],
  [t!"type READLINK3res struct {\n",
   t!"\tStatus  Nfsstat3\n",
   t!"\tResok   READLINK3resok\n",
   t!"\tResfail READLINK3resfail\n",
   t!"}\n"],
  [t!"type READ3args struct {\n",
   t!"\tFile   Nfs_fh3\n",
   t!"\tOffset Offset3\n",
   t!"\tCount  Count3\n",
   t!"}\n"],
  [t!"type READ3resok struct {\n",
   t!"\tFile_attributes Post_op_attr\n",
   t!"\tCount           Count3\n",
   t!"\tEof             bool\n",
   t!"\tData            []byte\n",
   t!"}\n"],
  [t!"type READ3resfail struct {\n",
   t!"\tFile_attributes Post_op_attr\n",
   t!"}\n"],
  [t!"type READ3res struct {\n",
   t!"\tStatus  Nfsstat3\n",
   t!"\tResok   READ3resok\n",
   t!"\tResfail READ3resfail\n",
   t!"}\n"],
  [t!"type Stable_how uint32\n",
   t!"\n"],
  [t!"const UNSTABLE Stable_how = 0\n"],
  [t!"const DATA_SYNC Stable_how = 1\n"],
  [t!"const FILE_SYNC Stable_how = 2\n",
   t!"\n"],
  [t!"type WRITE3args struct {\n",
   t!"\tFile   Nfs_fh3\n",
   t!"\tOffset Offset3\n",
   t!"\tCount  Count3\n",
   t!"\tStable Stable_how\n",
   t!"\tData   []byte\n",
   t!"}\n"],
  [t!"type WRITE3resok struct {\n",
   t!"\tFile_wcc  Wcc_data\n",
   t!"\tCount     Count3\n",
   t!"\tCommitted Stable_how\n",
   t!"\tVerf      Writeverf3\n",
   t!"}\n"],
  [t!"type WRITE3resfail struct {\n",
   t!"\tFile_wcc Wcc_data\n",
   t!"}\n"],
  [t!"type WRITE3res struct {\n",
   t!"\tStatus  Nfsstat3\n",
   t!"\tResok   WRITE3resok\n",
   t!"\tResfail WRITE3resfail\n",
   t!"}\n"],
  [t!"type Createmode3 uint32\n",
   t!"\n"],
  [t!"const UNCHECKED Createmode3 = 0\n"],
  [t!"const GUARDED Createmode3 = 1\n"],
  [t!"const EXCLUSIVE Createmode3 = 2\n",
   t!"\n"],
  [t!"type Createhow3 struct {\n",
   t!"\tMode           Createmode3\n",
   t!"\tObj_attributes Sattr3\n",
   t!"\tVerf           Createverf3\n",
   t!"}\n"],
  [t!"type CREATE3args struct {\n",
   t!"\tWhere Diropargs3\n",
   t!"\tHow   Createhow3\n",
   t!"}\n"],
  [t!"type CREATE3resok struct {\n",
   t!"\tObj            Post_op_fh3\n",
   t!"\tObj_attributes Post_op_attr\n",
   t!"\tDir_wcc        Wcc_data\n",
   t!"}\n"],
  [t!"type CREATE3resfail struct {\n",
   t!"\tDir_wcc Wcc_data\n",
   t!"}\n"],
  [t!"type CREATE3res struct {\n",
   t!"\tStatus  Nfsstat3\n",
   t!"\tResok   CREATE3resok\n",
   t!"\tResfail CREATE3resfail\n",
   t!"}\n"],
  [t!"type MKDIR3args struct {\n",
   t!"\tWhere      Diropargs3\n",
   t!"\tAttributes Sattr3\n",
   t!"}\n"],
  [t!"type MKDIR3resok struct {\n",
   t!"\tObj            Post_op_fh3\n",
   t!"\tObj_attributes Post_op_attr\n",
   t!"\tDir_wcc        Wcc_data\n",
   t!"}\n"],
  [t!"type MKDIR3resfail struct {\n",
   t!"\tDir_wcc Wcc_data\n",
   t!"}\n"],
  [t!"type MKDIR3res struct {\n",
   t!"\tStatus  Nfsstat3\n",
   t!"\tResok   MKDIR3resok\n",
   t!"\tResfail MKDIR3resfail\n",
   t!"}\n"],
  [t!"type Symlinkdata3 struct {\n",
   t!"\tSymlink_attributes Sattr3\n",
   t!"\tSymlink_data       Nfspath3\n",
   t!"}\n"],
  [t!"type SYMLINK3args struct {\n",
   t!"\tWhere   Diropargs3\n",
   t!"\tSymlink Symlinkdata3\n",
   t!"}\n"],
  [t!"type SYMLINK3resok struct {\n",
   t!"\tObj            Post_op_fh3\n",
   t!"\tObj_attributes Post_op_attr\n",
   t!"\tDir_wcc        Wcc_data\n",
   t!"}\n"],
  [t!"type SYMLINK3resfail struct {\n",
   t!"\tDir_wcc Wcc_data\n",
   t!"}\n"]]

def typesText4 : List (List Text) := [
  [t!"type SYMLINK3res struct {\n",
   t!"\tStatus  Nfsstat3\n",
   t!"\tResok   SYMLINK3resok\n",
   t!"\tResfail SYMLINK3resfail\n",
   t!"}\n"],
  [t!"type Devicedata3 struct {\n",
   t!"\tDev_attributes Sattr3\n",
   t!"\tSpec           Specdata3\n",
   t!"}\n"],
  [t!"type Mknoddata3 struct {\n",
   t!"\tFtype           Ftype3\n",
   t!"\tDevice          Devicedata3\n",
   t!"\tPipe_attributes Sattr3\n",
   t!"}\n"],
  [t!"type MKNOD3args struct {\n",
   t!"\tWhere Diropargs3\n",
   t!"\tWhat  Mknoddata3\n",
   t!"}\n"],
  [t!"type MKNOD3resok struct {\n",
   t!"\tObj            Post_op_fh3\n",
   t!"\tObj_attributes Post_op_attr\n",
   t!"\tDir_wcc        Wcc_data\n",
   t!"}\n"],
  [t!"type MKNOD3resfail struct {\n",
   t!"\tDir_wcc Wcc_data\n",
   t!"}\n"],
  [t!"type MKNOD3res struct {\n",
   t!"\tStatus  Nfsstat3\n",
   t!"\tResok   MKNOD3resok\n",
   t!"\tResfail MKNOD3resfail\n",
   t!"}\n"],
  [t!"type REMOVE3args struct {\n",
   t!"\tObject Diropargs3\n",
   t!"}\n"],
  [t!"type REMOVE3resok struct {\n",
   t!"\tDir_wcc Wcc_data\n",
   t!"}\n"],
  [t!"type REMOVE3resfail struct {\n",
   t!"\tDir_wcc Wcc_data\n",
   t!"}\n"],
  [t!"type REMOVE3res struct {\n",
   t!"\tStatus  Nfsstat3\n",
   t!"\tResok   REMOVE3resok\n",
   t!"\tResfail REMOVE3resfail\n",
   t!"}\n"],
  [t!"type RMDIR3args struct {\n",
   t!"\tObject Diropargs3\n",
   t!"}\n"],
  [t!"type RMDIR3resok struct {\n",
   t!"\tDir_wcc Wcc_data\n",
   t!"}\n"],
  [t!"type RMDIR3resfail struct {\n",
   t!"\tDir_wcc Wcc_data\n",
   t!"}\n"],
  [t!"type RMDIR3res struct {\n",
   t!"\tStatus  Nfsstat3\n",
   t!"\tResok   RMDIR3resok\n",
   t!"\tResfail RMDIR3resfail\n",
   t!"}\n"],
  [t!"type RENAME3args struct {\n",
   t!"\tFrom Diropargs3\n",
   t!"\tTo   Diropargs3\n",
   t!"}\n"],
  [t!"type RENAME3resok struct {\n",
   t!"\tFromdir_wcc Wcc_data\n",
   t!"\tTodir_wcc   Wcc_data\n",
   t!"}\n"],
  [t!"type RENAME3resfail struct {\n",
   t!"\tFromdir_wcc Wcc_data\n",
   t!"\tTodir_wcc   Wcc_data\n",
   t!"}\n"],
  [t!"type RENAME3res struct {\n",
   t!"\tStatus  Nfsstat3\n",
   t!"\tResok   RENAME3resok\n",
   t!"\tResfail RENAME3resfail\n",
   t!"}\n"],
  [t!"type LINK3args struct {\n",
   t!"\tFile Nfs_fh3\n",
   t!"\tLink Diropargs3\n",
   t!"}\n"],
  [t!"type LINK3resok struct {\n",
   t!"\tFile_attributes Post_op_attr\n",
   t!"\tLinkdir_wcc     Wcc_data\n",
   t!"}\n"],
  [t!"type LINK3resfail struct {\n",
   t!"\tFile_attributes Post_op_attr\n",
   t!"\tLinkdir_wcc     Wcc_data\n",
   t!"}\n"],
  [t!"type LINK3res struct {\n",
   t!"\tStatus  Nfsstat3\n",
   t!"\tResok   LINK3resok\n",
   t!"\tResfail LINK3resfail\n",
   t!"}\n"],
  [t!"type READDIR3args struct {\n",
   t!"\tDir        Nfs_fh3\n",
   t!"\tCookie     Cookie3\n",
   t!"\tCookieverf Cookieverf3\n",
   t!"\tCount      Count3\n",
   t!"}\n"],
  [t!"type Entry3 struct {\n",
   t!"\tFileid    Fileid3\n",
   t!"\tName      Filename3\n",
   t!"\tCookie    Cookie3\n",
   t!"\tNextentry *Entry3\n",
   t!"}\n"],
  [t!"type Dirlist3 struct {\n",
   t!"\tEntries *Entry3\n",
   t!"\tEof     bool\n",
   t!"}\n"],
  [t!"type READDIR3resok struct {\n",
   t!"\tDir_attributes Post_op_attr\n",
   t!"\tCookieverf     Cookieverf3\n",
   t!"\tReply          Dirlist3\n",
   t!"}\n"],
  [t!"type READDIR3resfail struct {\n",
   t!"\tDir_attributes Post_op_attr\n",
   t!"}\n"],
  [t!"type READDIR3res struct {\n",
   t!"\tStatus  Nfsstat3\n",
   t!"\tResok   READDIR3resok\n",
   t!"\tResfail READDIR3resfail\n",
   t!"}\n"],
  [t!"type READDIRPLUS3args struct {\n",
   t!"\tDir        Nfs_fh3\n",
   t!"\tCookie     Cookie3\n",
   t!"\tCookieverf Cookieverf3\n",
   t!"\tDircount   Count3\n",
   t!"\tMaxcount   Count3\n",
   t!"}\n"],
  [t!"type Entryplus3 struct {\n",
   t!"\tFileid          Fileid3\n",
   t!"\tName            Filename3\n",
   t!"\tCookie          Cookie3\n",
   t!"\tName_attributes Post_op_attr\n",
   t!"\tName_handle     Post_op_fh3\n",
   t!"\tNextentry       *Entryplus3\n",
   t!"}\n"],
  [t!"type Dirlistplus3 struct {\n",
   t!"\tEntries *Entryplus3\n",
   t!"\tEof     bool\n",
   t!"}\n"],
  [t!"type READDIRPLUS3resok struct {\n",
   t!"\tDir_attributes Post_op_attr\n",
   t!"\tCookieverf     Cookieverf3\n",
   t!"\tReply          Dirlistplus3\n",
   t!"}\n"],
  [t!"type READDIRPLUS3resfail struct {\n",
   t!"\tDir_attributes Post_op_attr\n",
   t!"}\n"],
  [t!"type READDIRPLUS3res struct {\n",
   t!"\tStatus  Nfsstat3\n",
   t!"\tResok   READDIRPLUS3resok\n",
   t!"\tResfail READDIRPLUS3resfail\n",
   t!"}\n"],
  [t!"type FSSTAT3args struct {\n",
   t!"\tFsroot Nfs_fh3\n",
   t!"}\n"],
  [t!"type FSSTAT3resok struct {\n",
   t!"\tObj_attributes Post_op_attr\n",
   t!"\tTbytes         Size3\n",
   t!"\tFbytes         Size3\n",
   t!"\tAbytes         Size3\n",
   t!"\tTfiles         Size3\n",
   t!"\tFfiles         Size3\n",
   t!"\tAfiles         Size3\n",
   t!"\tInvarsec       Uint32\n",
   t!"}\n"],
  [t!"type FSSTAT3resfail struct {\n",
   t!"\tObj_attributes Post_op_attr\n",
   t!"}\n"],
  [t!"type FSSTAT3res struct {\n",
   t!"\tStatus  Nfsstat3\n",
   t!"\tResok   FSSTAT3resok\n",
   t!"\tResfail FSSTAT3resfail\n",
   t!"}\n",
   t!"\n"],
  [t!"const FSF3_LINK uint32 = 0x0001\n"]]

def typesText5 : List (List Text) := [
  [t!"const FSF3_SYMLINK uint32 = 0x0002\n"],
  [t!"const FSF3_HOMOGENEOUS uint32 = 0x0008\n"],
  [t!"const FSF3_CANSETTIME uint32 = 0x0010\n",
   t!"\n"],
  [t!"type FSINFO3args struct {\n",
   t!"\tFsroot Nfs_fh3\n",
   t!"}\n"],
  [t!"type FSINFO3resok struct {\n",
   t!"\tObj_attributes Post_op_attr\n",
   t!"\tRtmax          Uint32\n",
   t!"\tRtpref         Uint32\n",
   t!"\tRtmult         Uint32\n",
   t!"\tWtmax          Uint32\n",
   t!"\tWtpref         Uint32\n",
   t!"\tWtmult         Uint32\n",
   t!"\tDtpref         Uint32\n",
   t!"\tMaxfilesize    Size3\n",
   t!"\tTime_delta     Nfstime3\n",
   t!"\tProperties     Uint32\n",
   t!"}\n"],
  [t!"type FSINFO3resfail struct {\n",
   t!"\tObj_attributes Post_op_attr\n",
   t!"}\n"],
  [t!"type FSINFO3res struct {\n",
   t!"\tStatus  Nfsstat3\n",
   t!"\tResok   FSINFO3resok\n",
   t!"\tResfail FSINFO3resfail\n",
   t!"}\n"],
  [t!"type PATHCONF3args struct {\n",
   t!"\tObject Nfs_fh3\n",
   t!"}\n"],
  [t!"type PATHCONF3resok struct {\n",
   t!"\tObj_attributes   Post_op_attr\n",
   t!"\tLinkmax          Uint32\n",
   t!"\tName_max         Uint32\n",
   t!"\tNo_trunc         bool\n",
   t!"\tChown_restricted bool\n",
   t!"\tCase_insensitive bool\n",
   t!"\tCase_preserving  bool\n",
   t!"}\n"],
  [t!"type PATHCONF3resfail struct {\n",
   t!"\tObj_attributes Post_op_attr\n",
   t!"}\n"],
  [t!"type PATHCONF3res struct {\n",
   t!"\tStatus  Nfsstat3\n",
   t!"\tResok   PATHCONF3resok\n",
   t!"\tResfail PATHCONF3resfail\n",
   t!"}\n"],
  [t!"type COMMIT3args struct {\n",
   t!"\tFile   Nfs_fh3\n",
   t!"\tOffset Offset3\n",
   t!"\tCount  Count3\n",
   t!"}\n"],
  [t!"type COMMIT3resok struct {\n",
   t!"\tFile_wcc Wcc_data\n",
   t!"\tVerf     Writeverf3\n",
   t!"}\n"],
  [t!"type COMMIT3resfail struct {\n",
   t!"\tFile_wcc Wcc_data\n",
   t!"}\n"],
  [t!"type COMMIT3res struct {\n",
   t!"\tStatus  Nfsstat3\n",
   t!"\tResok   COMMIT3resok\n",
   t!"\tResfail COMMIT3resfail\n",
   t!"}\n",
   t!"\n"],
  [t!"const MNTPATHLEN3 uint32 = 1024\n"],
  [t!"const MNTNAMLEN3 uint32 = 255\n"],
  [t!"const FHSIZE3 uint32 = 64\n",
   t!"\n"],
  [t!"type Fhandle3 []byte\n"],
  [t!"type Dirpath3 string\n"],
  [t!"type Name3 string\n"],
  [t!"type Mountstat3 uint32\n",
   t!"\n"],
  [t!"const MNT3_OK Mountstat3 = 0\n"],
  [t!"const MNT3ERR_PERM Mountstat3 = 1\n"],
  [t!"const MNT3ERR_NOENT Mountstat3 = 2\n"],
  [t!"const MNT3ERR_IO Mountstat3 = 5\n"],
  [t!"const MNT3ERR_ACCES Mountstat3 = 13\n"],
  [t!"const MNT3ERR_NOTDIR Mountstat3 = 20\n"],
  [t!"const MNT3ERR_INVAL Mountstat3 = 22\n"],
  [t!"const MNT3ERR_NAMETOOLONG Mountstat3 = 63\n"],
  [t!"const MNT3ERR_NOTSUPP Mountstat3 = 10004\n"],
  [t!"const MNT3ERR_SERVERFAULT Mountstat3 = 10006\n"],
  [t!"const MOUNT_PROGRAM uint32 = 100005\n"],
  [t!"const MOUNT_V3 uint32 = 3\n"],
  [t!"const MOUNTPROC3_NULL uint32 = 0\n"],
  [t!"const MOUNTPROC3_MNT uint32 = 1\n"],
  [t!"const MOUNTPROC3_DUMP uint32 = 2\n"],
  [t!"const MOUNTPROC3_UMNT uint32 = 3\n"],
  [t!"const MOUNTPROC3_UMNTALL uint32 = 4\n"],
  [t!"const MOUNTPROC3_EXPORT uint32 = 5\n",
   t!"\n"]]

def typesText6 : List (List Text) := [
  [t!"type Mountres3_ok struct {\n",
   t!"\tFhandle      Fhandle3\n",
   t!"\tAuth_flavors []uint32\n",
   t!"}\n"],
  [t!"type Mountres3 struct {\n",
   t!"\tFhs_status Mountstat3\n",
   t!"\tMountinfo  Mountres3_ok\n",
   t!"}\n"],
  [t!"type Mount3 struct {\n",
   t!"\tMl_hostname  Name3\n",
   t!"\tMl_directory Dirpath3\n",
   t!"\tMl_next      *Mount3\n",
   t!"}\n"],
  [t!"type Mountopt3 struct{ P *Mount3 }\n"],
  [t!"type Groups3 struct {\n",
   t!"\tGr_name Name3\n",
   t!"\tGr_next *Groups3\n",
   t!"}\n"],
  [t!"type Exports3 struct {\n",
   t!"\tEx_dir    Dirpath3\n",
   t!"\tEx_groups *Groups3\n",
   t!"\tEx_next   *Exports3\n",
   t!"}\n"],
  [t!"type Exportsopt3 struct{ P *Exports3 }\n"]]

/-- rfc1813/types.go -/
def typesText : List (List Text) := typesText0 ++ typesText1 ++ typesText2 ++ typesText3 ++ typesText4 ++ typesText5 ++ typesText6

def codeText0 : List (List Text) := [
  [t!"package rfc1813\n",
   t!"\n"],
  [t!"import \"github.com/zeldovich/go-rpcgen/xdr\"\n",
   t!"\n"],
  [t!"func (v *Uint64) Xdr(xs *xdr.XdrState) {\n",
   t!"\txdr.XdrU64(xs, (*uint64)(v))\n",
   t!"}\n"],
  [t!"func (v *Uint32) Xdr(xs *xdr.XdrState) {\n",
   t!"\txdr.XdrU32(xs, (*uint32)(v))\n",
   t!"}\n"],
  [t!"func (v *Filename3) Xdr(xs *xdr.XdrState) {\n",
   t!"\txdr.XdrString(xs, int(-1), (*string)(v))\n",
   t!"}\n"],
  [t!"func (v *Nfspath3) Xdr(xs *xdr.XdrState) {\n",
   t!"\txdr.XdrString(xs, int(-1), (*string)(v))\n",
   t!"}\n"],
  [t!"func (v *Fileid3) Xdr(xs *xdr.XdrState) {\n",
   t!"\t(*Uint64)(v).Xdr(xs)\n",
   t!"}\n"],
  [t!"func (v *Cookie3) Xdr(xs *xdr.XdrState) {\n",
   t!"\t(*Uint64)(v).Xdr(xs)\n",
   t!"}\n"],
  [t!"func (v *Cookieverf3) Xdr(xs *xdr.XdrState) {\n",
   t!"\txdr.XdrArray(xs, (*v)[:])\n",
   t!"}\n"],
  [t!"func (v *Createverf3) Xdr(xs *xdr.XdrState) {\n",
   t!"\txdr.XdrArray(xs, (*v)[:])\n",
   t!"}\n"],
  [t!"func (v *Writeverf3) Xdr(xs *xdr.XdrState) {\n",
   t!"\txdr.XdrArray(xs, (*v)[:])\n",
   t!"}\n"],
  [t!"func (v *Uid3) Xdr(xs *xdr.XdrState) {\n",
   t!"\t(*Uint32)(v).Xdr(xs)\n",
   t!"}\n"],
  [t!"func (v *Gid3) Xdr(xs *xdr.XdrState) {\n",
   t!"\t(*Uint32)(v).Xdr(xs)\n",
   t!"}\n"],
  [t!"func (v *Size3) Xdr(xs *xdr.XdrState) {\n",
   t!"\t(*Uint64)(v).Xdr(xs)\n",
   t!"}\n"],
  [t!"func (v *Offset3) Xdr(xs *xdr.XdrState) {\n",
   t!"\t(*Uint64)(v).Xdr(xs)\n",
   t!"}\n"],
  [t!"func (v *Mode3) Xdr(xs *xdr.XdrState) {\n",
   t!"\t(*Uint32)(v).Xdr(xs)\n",
   t!"}\n"],
  [t!"func (v *Count3) Xdr(xs *xdr.XdrState) {\n",
   t!"\t(*Uint32)(v).Xdr(xs)\n",
   t!"}\n"],
  [t!"func (v *Nfsstat3) Xdr(xs *xdr.XdrState) {\n",
   t!"\txdr.XdrU32(xs, (*uint32)(v))\n",
   t!"}\n"],
  [t!"func (v *Ftype3) Xdr(xs *xdr.XdrState) {\n",
   t!"\txdr.XdrU32(xs, (*uint32)(v))\n",
   t!"}\n"],
  [t!"func (v *Specdata3) Xdr(xs *xdr.XdrState) {\n",
   t!"\t(*Uint32)(&((v).Specdata1)).Xdr(xs)\n",
   t!"\t(*Uint32)(&((v).Specdata2)).Xdr(xs)\n",
   t!"}\n"],
  [t!"func (v *Nfs_fh3) Xdr(xs *xdr.XdrState) {\n",
   t!"\txdr.XdrVarArray(xs, int(NFS3_FHSIZE), (*[]byte)(&((v).Data)))\n",
   t!"}\n"],
  [t!"func (v *Nfstime3) Xdr(xs *xdr.XdrState) {\n",
   t!"\t(*Uint32)(&((v).Seconds)).Xdr(xs)\n",
   t!"\t(*Uint32)(&((v).Nseconds)).Xdr(xs)\n",
   t!"}\n"],
  [t!"func (v *Fattr3) Xdr(xs *xdr.XdrState) {\n",
   t!"\t(*Ftype3)(&((v).Ftype)).Xdr(xs)\n",
   t!"\t(*Mode3)(&((v).Mode)).Xdr(xs)\n",
   t!"\t(*Uint32)(&((v).Nlink)).Xdr(xs)\n",
   t!"\t(*Uid3)(&((v).Uid)).Xdr(xs)\n",
   t!"\t(*Gid3)(&((v).Gid)).Xdr(xs)\n",
   t!"\t(*Size3)(&((v).Size)).Xdr(xs)\n",
   t!"\t(*Size3)(&((v).Used)).Xdr(xs)\n",
   t!"\t(*Specdata3)(&((v).Rdev)).Xdr(xs)\n",
   t!"\t(*Uint64)(&((v).Fsid)).Xdr(xs)\n",
   t!"\t(*Fileid3)(&((v).Fileid)).Xdr(xs)\n",
   t!"\t(*Nfstime3)(&((v).Atime)).Xdr(xs)\n",
   t!"\t(*Nfstime3)(&((v).Mtime)).Xdr(xs)\n",
   t!"\t(*Nfstime3)(&((v).Ctime)).Xdr(xs)\n",
   t!"}\n"],
  [t!"func (v *Post_op_attr) Xdr(xs *xdr.XdrState) {\n",
   t!"\txdr.XdrBool(xs, (*bool)(&((v).Attributes_follow)))\n",
   t!"\tswitch (v).Attributes_follow {\n",
   t!"\tcase true:\n",
   t!"\t\t(*Fattr3)(&((v).Attributes)).Xdr(xs)\n",
   t!"\tcase false:\n",
   t!"\t}\n",
   t!"}\n"],
  [t!"func (v *Wcc_attr) Xdr(xs *xdr.XdrState) {\n",
   t!"\t(*Size3)(&((v).Size)).Xdr(xs)\n",
   t!"\t(*Nfstime3)(&((v).Mtime)).Xdr(xs)\n",
   t!"\t(*Nfstime3)(&((v).Ctime)).Xdr(xs)\n",
   t!"}\n"],
  [t!"func (v *Pre_op_attr) Xdr(xs *xdr.XdrState) {\n",
   t!"\txdr.XdrBool(xs, (*bool)(&((v).Attributes_follow)))\n",
   t!"\tswitch (v).Attributes_follow {\n",
   t!"\tcase true:\n",
   t!"\t\t(*Wcc_attr)(&((v).Attributes)).Xdr(xs)\n",
   t!"\tcase false:\n",
   t!"\t}\n",
   t!"}\n"],
  [t!"func (v *Wcc_data) Xdr(xs *xdr.XdrState) {\n",
   t!"\t(*Pre_op_attr)(&((v).Before)).Xdr(xs)\n",
   t!"\t(*Post_op_attr)(&((v).After)).Xdr(xs)\n",
   t!"}\n"],
  [t!"func (v *Post_op_fh3) Xdr(xs *xdr.XdrState) {\n",
   t!"\txdr.XdrBool(xs, (*bool)(&((v).Handle_follows)))\n",
   t!"\tswitch (v).Handle_follows {\n",
   t!"\tcase true:\n",
   t!"\t\t(*Nfs_fh3)(&((v).Handle)).Xdr(xs)\n",
   t!"\tcase false:\n",
   t!"\t}\n",
   t!"}\n"],
  [t!"func (v *Time_how) Xdr(xs *xdr.XdrState) {\n",
   t!"\txdr.XdrU32(xs, (*uint32)(v))\n",
   t!"}\n"],
  [t!"func (v *Set_mode3) Xdr(xs *xdr.XdrState) {\n",
   t!"\txdr.XdrBool(xs, (*bool)(&((v).Set_it)))\n",
   t!"\tswitch (v).Set_it {\n",
   t!"\tcase true:\n",
   t!"\t\t(*Mode3)(&((v).Mode)).Xdr(xs)\n",
   t!"\tdefault:\n",
   t!"\t}\n",
   t!"}\n"],
  [t!"func (v *Set_uid3) Xdr(xs *xdr.XdrState) {\n",
   t!"\txdr.XdrBool(xs, (*bool)(&((v).Set_it)))\n",
   t!"\tswitch (v).Set_it {\n",
   t!"\tcase true:\n",
   t!"\t\t(*Uid3)(&((v).Uid)).Xdr(xs)\n",
   t!"\tdefault:\n",
   t!"\t}\n",
   t!"}\n"],
  [t!"func (v *Set_gid3) Xdr(xs *xdr.XdrState) {\n",
   t!"\txdr.XdrBool(xs, (*bool)(&((v).Set_it)))\n",
   t!"\tswitch (v).Set_it {\n",
   t!"\tcase true:\n",
   t!"\t\t(*Gid3)(&((v).Gid)).Xdr(xs)\n",
   t!"\tdefault:\n",
   t!"\t}\n",
   t!"}\n"],
  [t!"func (v *Set_size3) Xdr(xs *xdr.XdrState) {\n",
   t!"\txdr.XdrBool(xs, (*bool)(&((v).Set_it)))\n",
   t!"\tswitch (v).Set_it {\n",
   t!"\tcase true:\n",
   t!"\t\t(*Size3)(&((v).Size)).Xdr(xs)\n",
   t!"\tdefault:\n",
   t!"\t}\n",
   t!"}\n"],
  [t!"func (v *Set_atime) Xdr(xs *xdr.XdrState) {\n",
   t!"\t(*Time_how)(&((v).Set_it)).Xdr(xs)\n",
   t!"\tswitch (v).Set_it {\n",
   t!"\tcase SET_TO_CLIENT_TIME:\n",
   t!"\t\t(*Nfstime3)(&((v).Atime)).Xdr(xs)\n",
   t!"\tdefault:\n",
   t!"\t}\n",
   t!"}\n"],
  [t!"func (v *Set_mtime) Xdr(xs *xdr.XdrState) {\n",
   t!"\t(*Time_how)(&((v).Set_it)).Xdr(xs)\n",
   t!"\tswitch (v).Set_it {\n",
   t!"\tcase SET_TO_CLIENT_TIME:\n",
   t!"\t\t(*Nfstime3)(&((v).Mtime)).Xdr(xs)\n",
   t!"\tdefault:\n",
   t!"\t}\n",
   t!"}\n"],
  [t!"func (v *Sattr3) Xdr(xs *xdr.XdrState) {\n",
   t!"\t(*Set_mode3)(&((v).Mode)).Xdr(xs)\n",
   t!"\t(*Set_uid3)(&((v).Uid)).Xdr(xs)\n",
   t!"\t(*Set_gid3)(&((v).Gid)).Xdr(xs)\n",
   t!"\t(*Set_size3)(&((v).Size)).Xdr(xs)\n",
   t!"\t(*Set_atime)(&((v).Atime)).Xdr(xs)\n",
   t!"\t(*Set_mtime)(&((v).Mtime)).Xdr(xs)\n",
   t!"}\n"],
  [t!"func (v *Diropargs3) Xdr(xs *xdr.XdrState) {\n",
   t!"\t(*Nfs_fh3)(&((v).Dir)).Xdr(xs)\n",
   t!"\t(*Filename3)(&((v).Name)).Xdr(xs)\n",
   t!"}\n",
   t!"\n"],
  [t!"type NFS_PROGRAM_NFS_V3_handler interface {\n",
   t!"\tNFSPROC3_NULL()\n",
   t!"\tNFSPROC3_GETATTR(GETATTR3args) GETATTR3res\n",
   t!"\tNFSPROC3_SETATTR(SETATTR3args) SETATTR3res\n",
   t!"\tNFSPROC3_LOOKUP(LOOKUP3args) LOOKUP3res\n",
   t!"\tNFSPROC3_ACCESS(ACCESS3args) ACCESS3res\n",
   t!"\tNFSPROC3_READLINK(READLINK3args) READLINK3res\n",
   t!"\tNFSPROC3_READ(READ3args) READ3res\n",
   t!"\tNFSPROC3_WRITE(WRITE3args) WRITE3res\n",
   t!"\tNFSPROC3_CREATE(CREATE3args) CREATE3res\n",
   t!"\tNFSPROC3_MKDIR(MKDIR3args) MKDIR3res\n",
   t!"\tNFSPROC3_SYMLINK(SYMLINK3args) SYMLINK3res\n",
   t!"\tNFSPROC3_MKNOD(MKNOD3args) MKNOD3res\n",
   t!"\tNFSPROC3_REMOVE(REMOVE3args) REMOVE3res\n",
   t!"\tNFSPROC3_RMDIR(RMDIR3args) RMDIR3res\n",
   t!"\tNFSPROC3_RENAME(RENAME3args) RENAME3res\n",
   t!"\tNFSPROC3_LINK(LINK3args) LINK3res\n",
   t!"\tNFSPROC3_READDIR(READDIR3args) READDIR3res\n",
   t!"\tNFSPROC3_READDIRPLUS(READDIRPLUS3args) READDIRPLUS3res\n",
   t!"\tNFSPROC3_FSSTAT(FSSTAT3args) FSSTAT3res\n",
   t!"\tNFSPROC3_FSINFO(FSINFO3args) FSINFO3res\n",
   t!"\tNFSPROC3_PATHCONF(PATHCONF3args) PATHCONF3res\n",
   t!"\tNFSPROC3_COMMIT(COMMIT3args) COMMIT3res\n",
   t!"}\n"],
  [t!"type NFS_PROGRAM_NFS_V3_handler_wrapper struct {\n",
   t!"\th NFS_PROGRAM_NFS_V3_handler\n",
   t!"}\n",
   t!"\n"],
  [t!"func (w *NFS_PROGRAM_NFS_V3_handler_wrapper) NFSPROC3_NULL(args *xdr.XdrState) (res xdr.Xdrable, err error) {\n",
   t!"\tvar out xdr.Void\n",
   t!"\tw.h.NFSPROC3_NULL()\n",
   t!"\treturn &out, nil\n",
   t!"}\n"]]

def codeText1 : List (List Text) := [
  [t!"func (w *NFS_PROGRAM_NFS_V3_handler_wrapper) NFSPROC3_GETATTR(args *xdr.XdrState) (res xdr.Xdrable, err error) {\n",
   t!"\tvar in GETATTR3args\n",
   t!"\tin.Xdr(args)\n",
   t!"\terr = args.Error()\n",
   t!"\tif err != nil {\n",
   t!"\t\treturn\n",
   t!"\t}\n",
   t!"\tvar out GETATTR3res\n",
   t!"\tout = w.h.NFSPROC3_GETATTR(in)\n",
   t!"\treturn &out, nil\n",
   t!"}\n"],
  [t!"func (w *NFS_PROGRAM_NFS_V3_handler_wrapper) NFSPROC3_SETATTR(args *xdr.XdrState) (res xdr.Xdrable, err error) {\n",
   t!"\tvar in SETATTR3args\n",
   t!"\tin.Xdr(args)\n",
   t!"\terr = args.Error()\n",
   t!"\tif err != nil {\n",
   t!"\t\treturn\n",
   t!"\t}\n",
   t!"\tvar out SETATTR3res\n",
   t!"\tout = w.h.NFSPROC3_SETATTR(in)\n",
   t!"\treturn &out, nil\n",
   t!"}\n"],
  [t!"func (w *NFS_PROGRAM_NFS_V3_handler_wrapper) NFSPROC3_LOOKUP(args *xdr.XdrState) (res xdr.Xdrable, err error) {\n",
   t!"\tvar in LOOKUP3args\n",
   t!"\tin.Xdr(args)\n",
   t!"\terr = args.Error()\n",
   t!"\tif err != nil {\n",
   t!"\t\treturn\n",
   t!"\t}\n",
   t!"\tvar out LOOKUP3res\n",
   t!"\tout = w.h.NFSPROC3_LOOKUP(in)\n",
   t!"\treturn &out, nil\n",
   t!"}\n"],
  [t!"func (w *NFS_PROGRAM_NFS_V3_handler_wrapper) NFSPROC3_ACCESS(args *xdr.XdrState) (res xdr.Xdrable, err error) {\n",
   t!"\tvar in ACCESS3args\n",
   t!"\tin.Xdr(args)\n",
   t!"\terr = args.Error()\n",
   t!"\tif err != nil {\n",
   t!"\t\treturn\n",
   t!"\t}\n",
   t!"\tvar out ACCESS3res\n",
   t!"\tout = w.h.NFSPROC3_ACCESS(in)\n",
   t!"\treturn &out, nil\n",
   t!"}\n"],
  [t!"func (w *NFS_PROGRAM_NFS_V3_handler_wrapper) NFSPROC3_READLINK(args *xdr.XdrState) (res xdr.Xdrable, err error) {\n",
   t!"\tvar in READLINK3args\n",
   t!"\tin.Xdr(args)\n",
   t!"\terr = args.Error()\n",
   t!"\tif err != nil {\n",
   t!"\t\treturn\n",
   t!"\t}\n",
   t!"\tvar out READLINK3res\n",
   t!"\tout = w.h.NFSPROC3_READLINK(in)\n",
   t!"\treturn &out, nil\n",
   t!"}\n"],
  [t!"func (w *NFS_PROGRAM_NFS_V3_handler_wrapper) NFSPROC3_READ(args *xdr.XdrState) (res xdr.Xdrable, err error) {\n",
   t!"\tvar in READ3args\n",
   t!"\tin.Xdr(args)\n",
   t!"\terr = args.Error()\n",
   t!"\tif err != nil {\n",
   t!"\t\treturn\n",
   t!"\t}\n",
   t!"\tvar out READ3res\n",
   t!"\tout = w.h.NFSPROC3_READ(in)\n",
   t!"\treturn &out, nil\n",
   t!"}\n"],
  [t!"func (w *NFS_PROGRAM_NFS_V3_handler_wrapper) NFSPROC3_WRITE(args *xdr.XdrState) (res xdr.Xdrable, err error) {\n",
   t!"\tvar in WRITE3args\n",
   t!"\tin.Xdr(args)\n",
   t!"\terr = args.Error()\n",
   t!"\tif err != nil {\n",
   t!"\t\treturn\n",
   t!"\t}\n",
   t!"\tvar out WRITE3res\n",
   t!"\tout = w.h.NFSPROC3_WRITE(in)\n",
   t!"\treturn &out, nil\n",
   t!"}\n"],
  [t!"func (w *NFS_PROGRAM_NFS_V3_handler_wrapper) NFSPROC3_CREATE(args *xdr.XdrState) (res xdr.Xdrable, err error) {\n",
   t!"\tvar in CREATE3args\n",
   t!"\tin.Xdr(args)\n",
   t!"\terr = args.Error()\n",
   t!"\tif err != nil {\n",
   t!"\t\treturn\n",
   t!"\t}\n",
   t!"\tvar out CREATE3res\n",
   t!"\tout = w.h.NFSPROC3_CREATE(in)\n",
   t!"\treturn &out, nil\n",
   t!"}\n"],
  [t!"func (w *NFS_PROGRAM_NFS_V3_handler_wrapper) NFSPROC3_MKDIR(args *xdr.XdrState) (res xdr.Xdrable, err error) {\n",
   t!"\tvar in MKDIR3args\n",
   t!"\tin.Xdr(args)\n",
   t!"\terr = args.Error()\n",
   t!"\tif err != nil {\n",
   t!"\t\treturn\n",
   t!"\t}\n",
   t!"\tvar out MKDIR3res\n",
   t!"\tout = w.h.NFSPROC3_MKDIR(in)\n",
   t!"\treturn &out, nil\n",
   t!"}\n"],
  [t!"func (w *NFS_PROGRAM_NFS_V3_handler_wrapper) NFSPROC3_SYMLINK(args *xdr.XdrState) (res xdr.Xdrable, err error) {\n",
   t!"\tvar in SYMLINK3args\n",
   t!"\tin.Xdr(args)\n",
   t!"\terr = args.Error()\n",
   t!"\tif err != nil {\n",
   t!"\t\treturn\n",
   t!"\t}\n",
   t!"\tvar out SYMLINK3res\n",
   t!"\tout = w.h.NFSPROC3_SYMLINK(in)\n",
   t!"\treturn &out, nil\n",
   t!"}\n"],
  [t!"func (w *NFS_PROGRAM_NFS_V3_handler_wrapper) NFSPROC3_MKNOD(args *xdr.XdrState) (res xdr.Xdrable, err error) {\n",
   t!"\tvar in MKNOD3args\n",
   t!"\tin.Xdr(args)\n",
   t!"\terr = args.Error()\n",
   t!"\tif err != nil {\n",
   t!"\t\treturn\n",
   t!"\t}\n",
   t!"\tvar out MKNOD3res\n",
   t!"\tout = w.h.NFSPROC3_MKNOD(in)\n",
   t!"\treturn &out, nil\n",
   t!"}\n"],
  [t!"func (w *NFS_PROGRAM_NFS_V3_handler_wrapper) NFSPROC3_REMOVE(args *xdr.XdrState) (res xdr.Xdrable, err error) {\n",
   t!"\tvar in REMOVE3args\n",
   t!"\tin.Xdr(args)\n",
   t!"\terr = args.Error()\n",
   t!"\tif err != nil {\n",
   t!"\t\treturn\n",
   t!"\t}\n",
   t!"\tvar out REMOVE3res\n",
   t!"\tout = w.h.NFSPROC3_REMOVE(in)\n",
   t!"\treturn &out, nil\n",
   t!"}\n"],
  [t!"func (w *NFS_PROGRAM_NFS_V3_handler_wrapper) NFSPROC3_RMDIR(args *xdr.XdrState) (res xdr.Xdrable, err error) {\n",
   t!"\tvar in RMDIR3args\n",
   t!"\tin.Xdr(args)\n",
   t!"\terr = args.Error()\n",
   t!"\tif err != nil {\n",
   t!"\t\treturn\n",
   t!"\t}\n",
   t!"\tvar out RMDIR3res\n",
   t!"\tout = w.h.NFSPROC3_RMDIR(in)\n",
   t!"\treturn &out, nil\n",
   t!"}\n"],
  [t!"func (w *NFS_PROGRAM_NFS_V3_handler_wrapper) NFSPROC3_RENAME(args *xdr.XdrState) (res xdr.Xdrable, err error) {\n",
   t!"\tvar in RENAME3args\n",
   t!"\tin.Xdr(args)\n",
   t!"\terr = args.Error()\n",
   t!"\tif err != nil {\n",
   t!"\t\treturn\n",
   t!"\t}\n",
   t!"\tvar out RENAME3res\n",
   t!"\tout = w.h.NFSPROC3_RENAME(in)\n",
   t!"\treturn &out, nil\n",
   t!"}\n"],
  [t!"func (w *NFS_PROGRAM_NFS_V3_handler_wrapper) NFSPROC3_LINK(args *xdr.XdrState) (res xdr.Xdrable, err error) {\n",
   t!"\tvar in LINK3args\n",
   t!"\tin.Xdr(args)\n",
   t!"\terr = args.Error()\n",
   t!"\tif err != nil {\n",
   t!"\t\treturn\n",
   t!"\t}\n",
   t!"\tvar out LINK3res\n",
   t!"\tout = w.h.NFSPROC3_LINK(in)\n",
   t!"\treturn &out, nil\n",
   t!"}\n"],
  [t!"func (w *NFS_PROGRAM_NFS_V3_handler_wrapper) NFSPROC3_READDIR(args *xdr.XdrState) (res xdr.Xdrable, err error) {\n",
   t!"\tvar in READDIR3args\n",
   t!"\tin.Xdr(args)\n",
   t!"\terr = args.Error()\n",
   t!"\tif err != nil {\n",
   t!"\t\treturn\n",
   t!"\t}\n",
   t!"\tvar out READDIR3res\n",
   t!"\tout = w.h.NFSPROC3_READDIR(in)\n",
   t!"\treturn &out, nil\n",
   t!"}\n"],
  [t!"func (w *NFS_PROGRAM_NFS_V3_handler_wrapper) NFSPROC3_READDIRPLUS(args *xdr.XdrState) (res xdr.Xdrable, err error) {\n",
   t!"\tvar in READDIRPLUS3args\n",
   t!"\tin.Xdr(args)\n",
   t!"\terr = args.Error()\n",
   t!"\tif err != nil {\n",
   t!"\t\treturn\n",
   t!"\t}\n",
   t!"\tvar out READDIRPLUS3res\n",
   t!"\tout = w.h.NFSPROC3_READDIRPLUS(in)\n",
   t!"\treturn &out, nil\n",
   t!"}\n"],
  [t!"func (w *NFS_PROGRAM_NFS_V3_handler_wrapper) NFSPROC3_FSSTAT(args *xdr.XdrState) (res xdr.Xdrable, err error) {\n",
   t!"\tvar in FSSTAT3args\n",
   t!"\tin.Xdr(args)\n",
   t!"\terr = args.Error()\n",
   t!"\tif err != nil {\n",
   t!"\t\treturn\n",
   t!"\t}\n",
   t!"\tvar out FSSTAT3res\n",
   t!"\tout = w.h.NFSPROC3_FSSTAT(in)\n",
   t!"\treturn &out, nil\n",
   t!"}\n"],
  [t!"func (w *NFS_PROGRAM_NFS_V3_handler_wrapper) NFSPROC3_FSINFO(args *xdr.XdrState) (res xdr.Xdrable, err error) {\n",
   t!"\tvar in FSINFO3args\n",
   t!"\tin.Xdr(args)\n",
   t!"\terr = args.Error()\n",
   t!"\tif err != nil {\n",
   t!"\t\treturn\n",
   t!"\t}\n",
   t!"\tvar out FSINFO3res\n",
   t!"\tout = w.h.NFSPROC3_FSINFO(in)\n",
   t!"\treturn &out, nil\n",
   t!"}\n"],
  [t!"func (w *NFS_PROGRAM_NFS_V3_handler_wrapper) NFSPROC3_PATHCONF(args *xdr.XdrState) (res xdr.Xdrable, err error) {\n",
   t!"\tvar in PATHCONF3args\n",
   t!"\tin.Xdr(args)\n",
   t!"\terr = args.Error()\n",
   t!"\tif err != nil {\n",
   t!"\t\treturn\n",
   t!"\t}\n",
   t!"\tvar out PATHCONF3res\n",
   t!"\tout = w.h.NFSPROC3_PATHCONF(in)\n",
   t!"\treturn &out, nil\n",
   t!"}\n"],
  [t!"func (w *NFS_PROGRAM_NFS_V3_handler_wrapper) NFSPROC3_COMMIT(args *xdr.XdrState) (res xdr.Xdrable, err error) {\n",
   t!"\tvar in COMMIT3args\n",
   t!"\tin.Xdr(args)\n",
   t!"\terr = args.Error()\n",
   t!"\tif err != nil {\n",
   t!"\t\treturn\n",
   t!"\t}\n",
   t!"\tvar out COMMIT3res\n",
   t!"\tout = w.h.NFSPROC3_COMMIT(in)\n",
   t!"\treturn &out, nil\n",
   t!"}\n"],
  [t!"func NFS_PROGRAM_NFS_V3_regs(h NFS_PROGRAM_NFS_V3_handler) []xdr.ProcRegistration {\n",
   t!"\tw := &NFS_PROGRAM_NFS_V3_handler_wrapper{h}\n",
   t!"\treturn []xdr.ProcRegistration{\n",
   t!"\t\txdr.ProcRegistration{\n",
   t!"\t\t\tProg:    NFS_PROGRAM,\n",
   t!"\t\t\tVers:    NFS_V3,\n",
   t!"\t\t\tProc:    NFSPROC3_NULL,\n",
   t!"\t\t\tHandler: w.NFSPROC3_NULL,\n",
   t!"\t\t},\n",
   t!"\t\txdr.ProcRegistration{\n",
   t!"\t\t\tProg:    NFS_PROGRAM,\n",
   t!"\t\t\tVers:    NFS_V3,\n",
   t!"\t\t\tProc:    NFSPROC3_GETATTR,\n",
   t!"\t\t\tHandler: w.NFSPROC3_GETATTR,\n",
   t!"\t\t},\n",
   t!"\t\txdr.ProcRegistration{\n",
   t!"\t\t\tProg:    NFS_PROGRAM,\n",
   t!"\t\t\tVers:    NFS_V3,\n",
   t!"\t\t\tProc:    NFSPROC3_SETATTR,\n",
   t!"\t\t\tHandler: w.NFSPROC3_SETATTR,\n",
   t!"\t\t},\n",
   t!"\t\txdr.ProcRegistration{\n",
   t!"\t\t\tProg:    NFS_PROGRAM,\n",
   t!"\t\t\tVers:    NFS_V3,\n",
   t!"\t\t\tProc:    NFSPROC3_LOOKUP,\n",
   t!"\t\t\tHandler: w.NFSPROC3_LOOKUP,\n",
   t!"\t\t},\n",
   t!"\t\txdr.ProcRegistration{\n",
   t!"\t\t\tProg:    NFS_PROGRAM,\n",
   t!"\t\t\tVers:    NFS_V3,\n",
   t!"\t\t\tProc:    NFSPROC3_ACCESS,\n",
   t!"\t\t\tHandler: w.NFSPROC3_ACCESS,\n",
   t!"\t\t},\n",
   t!"\t\txdr.ProcRegistration{\n",
   t!"\t\t\tProg:    NFS_PROGRAM,\n",
   t!"\t\t\tVers:    NFS_V3,\n",
   t!"\t\t\tProc:    NFSPROC3_READLINK,\n",
   t!"\t\t\tHandler: w.NFSPROC3_READLINK,\n",
   t!"\t\t},\n",
   t!"\t\txdr.ProcRegistration{\n",
   t!"\t\t\tProg:    NFS_PROGRAM,\n",
   t!"\t\t\tVers:    NFS_V3,\n",
   t!"\t\t\tProc:    NFSPROC3_READ,\n",
   t!"\t\t\tHandler: w.NFSPROC3_READ,\n",
   t!"\t\t},\n",
   t!"\t\txdr.ProcRegistration{\n",
   t!"\t\t\tProg:    NFS_PROGRAM,\n",
   t!"\t\t\tVers:    NFS_V3,\n",
   t!"\t\t\tProc:    NFSPROC3_WRITE,\n",
   t!"\t\t\tHandler: w.NFSPROC3_WRITE,\n",
   t!"\t\t},\n",
   t!"\t\txdr.ProcRegistration{\n",
   t!"\t\t\tProg:    NFS_PROGRAM,\n",
   t!"\t\t\tVers:    NFS_V3,\n",
   t!"\t\t\tProc:    NFSPROC3_CREATE,\n",
   t!"\t\t\tHandler: w.NFSPROC3_CREATE,\n",
   t!"\t\t},\n",
   t!"\t\txdr.ProcRegistration{\n",
   t!"\t\t\tProg:    NFS_PROGRAM,\n",
   t!"\t\t\tVers:    NFS_V3,\n",
   t!"\t\t\tProc:    NFSPROC3_MKDIR,\n",
   t!"\t\t\tHandler: w.NFSPROC3_MKDIR,\n",
   t!"\t\t},\n",
   t!"\t\txdr.ProcRegistration{\n",
   t!"\t\t\tProg:    NFS_PROGRAM,\n",
   t!"\t\t\tVers:    NFS_V3,\n",
   t!"\t\t\tProc:    NFSPROC3_SYMLINK,\n",
   t!"\t\t\tHandler: w.NFSPROC3_SYMLINK,\n",
   t!"\t\t},\n",
   t!"\t\txdr.ProcRegistration{\n",
   t!"\t\t\tProg:    NFS_PROGRAM,\n",
   t!"\t\t\tVers:    NFS_V3,\n",
   t!"\t\t\tProc:    NFSPROC3_MKNOD,\n",
   t!"\t\t\tHandler: w.NFSPROC3_MKNOD,\n",
   t!"\t\t},\n",
   t!"\t\txdr.ProcRegistration{\n",
   t!"\t\t\tProg:    NFS_PROGRAM,\n",
   t!"\t\t\tVers:    NFS_V3,\n",
   t!"\t\t\tProc:    NFSPROC3_REMOVE,\n",
   t!"\t\t\tHandler: w.NFSPROC3_REMOVE,\n",
   t!"\t\t},\n",
   t!"\t\txdr.ProcRegistration{\n",
   t!"\t\t\tProg:    NFS_PROGRAM,\n",
   t!"\t\t\tVers:    NFS_V3,\n",
   t!"\t\t\tProc:    NFSPROC3_RMDIR,\n",
   t!"\t\t\tHandler: w.NFSPROC3_RMDIR,\n",
   t!"\t\t},\n",
   t!"\t\txdr.ProcRegistration{\n",
   t!"\t\t\tProg:    NFS_PROGRAM,\n",
   t!"\t\t\tVers:    NFS_V3,\n",
   t!"\t\t\tProc:    NFSPROC3_RENAME,\n",
   t!"\t\t\tHandler: w.NFSPROC3_RENAME,\n",
   t!"\t\t},\n",
   t!"\t\txdr.ProcRegistration{\n",
   t!"\t\t\tProg:    NFS_PROGRAM,\n",
   t!"\t\t\tVers:    NFS_V3,\n",
   t!"\t\t\tProc:    NFSPROC3_LINK,\n",
   t!"\t\t\tHandler: w.NFSPROC3_LINK,\n",
   t!"\t\t},\n",
   t!"\t\txdr.ProcRegistration{\n",
   t!"\t\t\tProg:    NFS_PROGRAM,\n",
   t!"\t\t\tVers:    NFS_V3,\n",
   t!"\t\t\tProc:    NFSPROC3_READDIR,\n",
   t!"\t\t\tHandler: w.NFSPROC3_READDIR,\n",
   t!"\t\t},\n",
   t!"\t\txdr.ProcRegistration{\n",
   t!"\t\t\tProg:    NFS_PROGRAM,\n",
   t!"\t\t\tVers:    NFS_V3,\n",
   t!"\t\t\tProc:    NFSPROC3_READDIRPLUS,\n",
   t!"\t\t\tHandler: w.NFSPROC3_READDIRPLUS,\n",
   t!"\t\t},\n",
   t!"\t\txdr.ProcRegistration{\n",
   t!"\t\t\tProg:    NFS_PROGRAM,\n",
   t!"\t\t\tVers:    NFS_V3,\n",
   t!"\t\t\tProc:    NFSPROC3_FSSTAT,\n",
   t!"\t\t\tHandler: w.NFSPROC3_FSSTAT,\n",
   t!"\t\t},\n",
   t!"\t\txdr.ProcRegistration{\n",
   t!"\t\t\tProg:    NFS_PROGRAM,\n",
   t!"\t\t\tVers:    NFS_V3,\n",
   t!"\t\t\tProc:    NFSPROC3_FSINFO,\n",
   t!"\t\t\tHandler: w.NFSPROC3_FSINFO,\n",
   t!"\t\t},\n",
   t!"\t\txdr.ProcRegistration{\n",
   t!"\t\t\tProg:    NFS_PROGRAM,\n",
   t!"\t\t\tVers:    NFS_V3,\n",
   t!"\t\t\tProc:    NFSPROC3_PATHCONF,\n",
   t!"\t\t\tHandler: w.NFSPROC3_PATHCONF,\n",
   t!"\t\t},\n",
   t!"\t\txdr.ProcRegistration{\n",
   t!"\t\t\tProg:    NFS_PROGRAM,\n",
   t!"\t\t\tVers:    NFS_V3,\n",
   t!"\t\t\tProc:    NFSPROC3_COMMIT,\n",
   t!"\t\t\tHandler: w.NFSPROC3_COMMIT,\n",
   t!"\t\t},\n",
   t!"\t}\n",
   t!"}\n"],
  [t!"func (v *GETATTR3args) Xdr(xs *xdr.XdrState) {\n",
   t!"\t(*Nfs_fh3)(&((v).Object)).Xdr(xs)\n",
   t!"}\n"],
  [t!"func (v *GETATTR3resok) Xdr(xs *xdr.XdrState) {\n",
   t!"\t(*Fattr3)(&((v).Obj_attributes)).Xdr(xs)\n",
   t!"}\n"],
  [t!"func (v *GETATTR3res) Xdr(xs *xdr.XdrState) {\n",
   t!"\t(*Nfsstat3)(&((v).Status)).Xdr(xs)\n",
   t!"\tswitch (v).Status {\n",
   t!"\tcase NFS3_OK:\n",
   t!"\t\t(*GETATTR3resok)(&((v).Resok)).Xdr(xs)\n",
   t!"\tdefault:\n",
   t!"\t}\n",
   t!"}\n"],
  [t!"func (v *Sattrguard3) Xdr(xs *xdr.XdrState) {\n",
   t!"\txdr.XdrBool(xs, (*bool)(&((v).Check)))\n",
   t!"\tswitch (v).Check {\n",
   t!"\tcase true:\n",
   t!"\t\t(*Nfstime3)(&((v).Obj_ctime)).Xdr(xs)\n",
   t!"\tcase false:\n",
   t!"\t}\n",
   t!"}\n"],
  [t!"func (v *SETATTR3args) Xdr(xs *xdr.XdrState) {\n",
   t!"\t(*Nfs_fh3)(&((v).Object)).Xdr(xs)\n",
   t!"\t(*Sattr3)(&((v).New_attributes)).Xdr(xs)\n",
   t!"\t(*Sattrguard3)(&((v).Guard)).Xdr(xs)\n",
   t!"}\n"],
  [t!"func (v *SETATTR3resok) Xdr(xs *xdr.XdrState) {\n",
   t!"\t(*Wcc_data)(&((v).Obj_wcc)).Xdr(xs)\n",
   t!"}\n"],
  [t!"func (v *SETATTR3resfail) Xdr(xs *xdr.XdrState) {\n",
   t!"\t(*Wcc_data)(&((v).Obj_wcc)).Xdr(xs)\n",
   t!"}\n"],
  [t!"func (v *SETATTR3res) Xdr(xs *xdr.XdrState) {\n",
   t!"\t(*Nfsstat3)(&((v).Status)).Xdr(xs)\n",
   t!"\tswitch (v).Status {\n",
   t!"\tcase NFS3_OK:\n",
   t!"\t\t(*SETATTR3resok)(&((v).Resok)).Xdr(xs)\n",
   t!"\tdefault:\n",
   t!"\t\t(*SETATTR3resfail)(&((v).Resfail)).Xdr(xs)\n",
   t!"\t}\n",
   t!"}\n"],
  [t!"func (v *LOOKUP3args) Xdr(xs *xdr.XdrState) {\n",
   t!"\t(*Diropargs3)(&((v).What)).Xdr(xs)\n",
   t!"}\n"],
  [t!"func (v *LOOKUP3resok) Xdr(xs *xdr.XdrState) {\n",
   t!"\t(*Nfs_fh3)(&((v).Object)).Xdr(xs)\n",
   t!"\t(*Post_op_attr)(&((v).Obj_attributes)).Xdr(xs)\n",
   t!"\t(*Post_op_attr)(&((v).Dir_attributes)).Xdr(xs)\n",
   t!"}\n"],
  [t!"func (v *LOOKUP3resfail) Xdr(xs *xdr.XdrState) {\n",
   t!"\t(*Post_op_attr)(&((v).Dir_attributes)).Xdr(xs)\n",
   t!"}\n"],
  [t!"func (v *LOOKUP3res) Xdr(xs *xdr.XdrState) {\n",
   t!"\t(*Nfsstat3)(&((v).Status)).Xdr(xs)\n",
   t!"\tswitch (v).Status {\n",
   t!"\tcase NFS3_OK:\n",
   t!"\t\t(*LOOKUP3resok)(&((v).Resok)).Xdr(xs)\n",
   t!"\tdefault:\n",
   t!"\t\t(*LOOKUP3resfail)(&((v).Resfail)).Xdr(xs)\n",
   t!"\t}\n",
   t!"}\n"],
  [t!"func (v *ACCESS3args) Xdr(xs *xdr.XdrState) {\n",
   t!"\t(*Nfs_fh3)(&((v).Object)).Xdr(xs)\n",
   t!"\t(*Uint32)(&((v).Access)).Xdr(xs)\n",
   t!"}\n"],
  [t!"func (v *ACCESS3resok) Xdr(xs *xdr.XdrState) {\n",
   t!"\t(*Post_op_attr)(&((v).Obj_attributes)).Xdr(xs)\n",
   t!"\t(*Uint32)(&((v).Access)).Xdr(xs)\n",
   t!"}\n"],
  [t!"func (v *ACCESS3resfail) Xdr(xs *xdr.XdrState) {\n",
   t!"\t(*Post_op_attr)(&((v).Obj_attributes)).Xdr(xs)\n",
   t!"}\n"],
  [t!"func (v *ACCESS3res) Xdr(xs *xdr.XdrState) {\n",
   t!"\t(*Nfsstat3)(&((v).Status)).Xdr(xs)\n",
   t!"\tswitch (v).Status {\n",
   t!"\tcase NFS3_OK:\n",
   t!"\t\t(*ACCESS3resok)(&((v).Resok)).Xdr(xs)\n",
   t!"\tdefault:\n",
   t!"\t\t(*ACCESS3resfail)(&((v).Resfail)).Xdr(xs)\n",
   t!"\t}\n",
   t!"}\n"],
  [t!"func (v *READLINK3args) Xdr(xs *xdr.XdrState) {\n",
   t!"\t(*Nfs_fh3)(&((v).Symlink)).Xdr(xs)\n",
   t!"}\n"],
  [t!"func (v *READLINK3resok) Xdr(xs *xdr.XdrState) {\n",
   t!"\t(*Post_op_attr)(&((v).Symlink_attributes)).Xdr(xs)\n",
   t!"\t(*Nfspath3)(&((v).Data)).Xdr(xs)\n",
   t!"}\n"]]

def codeText2 : List (List Text) := [
  [t!"func (v *READLINK3resfail) Xdr(xs *xdr.XdrState) {\n",
   t!"\t(*Post_op_attr)(&((v).Symlink_attributes)).Xdr(xs)\n",
   t!"}\n"],
  [t!"func (v *READLINK3res) Xdr(xs *xdr.XdrState) {\n",
   t!"\t(*Nfsstat3)(&((v).Status)).Xdr(xs)\n",
   t!"\tswitch (v).Status {\n",
   t!"\tcase NFS3_OK:\n",
   t!"\t\t(*READLINK3resok)(&((v).Resok)).Xdr(xs)\n",
   t!"\tdefault:\n",
   t!"\t\t(*READLINK3resfail)(&((v).Resfail)).Xdr(xs)\n",
   t!"\t}\n",
   t!"}\n"],
  [t!"func (v *READ3args) Xdr(xs *xdr.XdrState) {\n",
   t!"\t(*Nfs_fh3)(&((v).File)).Xdr(xs)\n",
   t!"\t(*Offset3)(&((v).Offset)).Xdr(xs)\n",
   t!"\t(*Count3)(&((v).Count)).Xdr(xs)\n",
   t!"}\n"],
  [t!"func (v *READ3resok) Xdr(xs *xdr.XdrState) {\n",
   t!"\t(*Post_op_attr)(&((v).File_attributes)).Xdr(xs)\n",
   t!"\t(*Count3)(&((v).Count)).Xdr(xs)\n",
   t!"\txdr.XdrBool(xs, (*bool)(&((v).Eof)))\n",
   t!"\txdr.XdrVarArray(xs, int(-1), (*[]byte)(&((v).Data)))\n",
   t!"}\n"],
  [t!"func (v *READ3resfail) Xdr(xs *xdr.XdrState) {\n",
   t!"\t(*Post_op_attr)(&((v).File_attributes)).Xdr(xs)\n",
   t!"}\n"],
  [t!"func (v *READ3res) Xdr(xs *xdr.XdrState) {\n",
   t!"\t(*Nfsstat3)(&((v).Status)).Xdr(xs)\n",
   t!"\tswitch (v).Status {\n",
   t!"\tcase NFS3_OK:\n",
   t!"\t\t(*READ3resok)(&((v).Resok)).Xdr(xs)\n",
   t!"\tdefault:\n",
   t!"\t\t(*READ3resfail)(&((v).Resfail)).Xdr(xs)\n",
   t!"\t}\n",
   t!"}\n"],
  [t!"func (v *Stable_how) Xdr(xs *xdr.XdrState) {\n",
   t!"\txdr.XdrU32(xs, (*uint32)(v))\n",
   t!"}\n"],
  [t!"func (v *WRITE3args) Xdr(xs *xdr.XdrState) {\n",
   t!"\t(*Nfs_fh3)(&((v).File)).Xdr(xs)\n",
   t!"\t(*Offset3)(&((v).Offset)).Xdr(xs)\n",
   t!"\t(*Count3)(&((v).Count)).Xdr(xs)\n",
   t!"\t(*Stable_how)(&((v).Stable)).Xdr(xs)\n",
   t!"\txdr.XdrVarArray(xs, int(-1), (*[]byte)(&((v).Data)))\n",
   t!"}\n"],
  [t!"func (v *WRITE3resok) Xdr(xs *xdr.XdrState) {\n",
   t!"\t(*Wcc_data)(&((v).File_wcc)).Xdr(xs)\n",
   t!"\t(*Count3)(&((v).Count)).Xdr(xs)\n",
   t!"\t(*Stable_how)(&((v).Committed)).Xdr(xs)\n",
   t!"\t(*Writeverf3)(&((v).Verf)).Xdr(xs)\n",
   t!"}\n"],
  [t!"func (v *WRITE3resfail) Xdr(xs *xdr.XdrState) {\n",
   t!"\t(*Wcc_data)(&((v).File_wcc)).Xdr(xs)\n",
   t!"}\n"],
  [t!"func (v *WRITE3res) Xdr(xs *xdr.XdrState) {\n",
   t!"\t(*Nfsstat3)(&((v).Status)).Xdr(xs)\n",
   t!"\tswitch (v).Status {\n",
   t!"\tcase NFS3_OK:\n",
   t!"\t\t(*WRITE3resok)(&((v).Resok)).Xdr(xs)\n",
   t!"\tdefault:\n",
   t!"\t\t(*WRITE3resfail)(&((v).Resfail)).Xdr(xs)\n",
   t!"\t}\n",
   t!"}\n"],
  [t!"func (v *Createmode3) Xdr(xs *xdr.XdrState) {\n",
   t!"\txdr.XdrU32(xs, (*uint32)(v))\n",
   t!"}\n"],
  [t!"func (v *Createhow3) Xdr(xs *xdr.XdrState) {\n",
   t!"\t(*Createmode3)(&((v).Mode)).Xdr(xs)\n",
   t!"\tswitch (v).Mode {\n",
   t!"\tcase UNCHECKED:\n",
   t!"\t\tfallthrough\n",
   t!"\tcase GUARDED:\n",
   t!"\t\t(*Sattr3)(&((v).Obj_attributes)).Xdr(xs)\n",
   t!"\tcase EXCLUSIVE:\n",
   t!"\t\t(*Createverf3)(&((v).Verf)).Xdr(xs)\n",
   t!"\t}\n",
   t!"}\n"],
  [t!"func (v *CREATE3args) Xdr(xs *xdr.XdrState) {\n",
   t!"\t(*Diropargs3)(&((v).Where)).Xdr(xs)\n",
   t!"\t(*Createhow3)(&((v).How)).Xdr(xs)\n",
   t!"}\n"],
  [t!"func (v *CREATE3resok) Xdr(xs *xdr.XdrState) {\n",
   t!"\t(*Post_op_fh3)(&((v).Obj)).Xdr(xs)\n",
   t!"\t(*Post_op_attr)(&((v).Obj_attributes)).Xdr(xs)\n",
   t!"\t(*Wcc_data)(&((v).Dir_wcc)).Xdr(xs)\n",
   t!"}\n"],
  [t!"func (v *CREATE3resfail) Xdr(xs *xdr.XdrState) {\n",
   t!"\t(*Wcc_data)(&((v).Dir_wcc)).Xdr(xs)\n",
   t!"}\n"],
  [t!"func (v *CREATE3res) Xdr(xs *xdr.XdrState) {\n",
   t!"\t(*Nfsstat3)(&((v).Status)).Xdr(xs)\n",
   t!"\tswitch (v).Status {\n",
   t!"\tcase NFS3_OK:\n",
   t!"\t\t(*CREATE3resok)(&((v).Resok)).Xdr(xs)\n",
   t!"\tdefault:\n",
   t!"\t\t(*CREATE3resfail)(&((v).Resfail)).Xdr(xs)\n",
   t!"\t}\n",
   t!"}\n"],
  [t!"func (v *MKDIR3args) Xdr(xs *xdr.XdrState) {\n",
   t!"\t(*Diropargs3)(&((v).Where)).Xdr(xs)\n",
   t!"\t(*Sattr3)(&((v).Attributes)).Xdr(xs)\n",
   t!"}\n"],
  [t!"func (v *MKDIR3resok) Xdr(xs *xdr.XdrState) {\n",
   t!"\t(*Post_op_fh3)(&((v).Obj)).Xdr(xs)\n",
   t!"\t(*Post_op_attr)(&((v).Obj_attributes)).Xdr(xs)\n",
   t!"\t(*Wcc_data)(&((v).Dir_wcc)).Xdr(xs)\n",
   t!"}\n"],
  [t!"func (v *MKDIR3resfail) Xdr(xs *xdr.XdrState) {\n",
   t!"\t(*Wcc_data)(&((v).Dir_wcc)).Xdr(xs)\n",
   t!"}\n"],
  [t!"func (v *MKDIR3res) Xdr(xs *xdr.XdrState) {\n",
   t!"\t(*Nfsstat3)(&((v).Status)).Xdr(xs)\n",
   t!"\tswitch (v).Status {\n",
   t!"\tcase NFS3_OK:\n",
   t!"\t\t(*MKDIR3resok)(&((v).Resok)).Xdr(xs)\n",
   t!"\tdefault:\n",
   t!"\t\t(*MKDIR3resfail)(&((v).Resfail)).Xdr(xs)\n",
   t!"\t}\n",
   t!"}\n"],
  [t!"func (v *Symlinkdata3) Xdr(xs *xdr.XdrState) {\n",
   t!"\t(*Sattr3)(&((v).Symlink_attributes)).Xdr(xs)\n",
   t!"\t(*Nfspath3)(&((v).Symlink_data)).Xdr(xs)\n",
   t!"}\n"],
  [t!"func (v *SYMLINK3args) Xdr(xs *xdr.XdrState) {\n",
   t!"\t(*Diropargs3)(&((v).Where)).Xdr(xs)\n",
   t!"\t(*Symlinkdata3)(&((v).Symlink)).Xdr(xs)\n",
   t!"}\n"],
  [t!"func (v *SYMLINK3resok) Xdr(xs *xdr.XdrState) {\n",
   t!"\t(*Post_op_fh3)(&((v).Obj)).Xdr(xs)\n",
   t!"\t(*Post_op_attr)(&((v).Obj_attributes)).Xdr(xs)\n",
   t!"\t(*Wcc_data)(&((v).Dir_wcc)).Xdr(xs)\n",
   t!"}\n"],
  [t!"func (v *SYMLINK3resfail) Xdr(xs *xdr.XdrState) {\n",
   t!"\t(*Wcc_data)(&((v).Dir_wcc)).Xdr(xs)\n",
   t!"}\n"],
  [t!"func (v *SYMLINK3res) Xdr(xs *xdr.XdrState) {\n",
   t!"\t(*Nfsstat3)(&((v).Status)).Xdr(xs)\n",
   t!"\tswitch (v).Status {\n",
   t!"\tcase NFS3_OK:\n",
   t!"\t\t(*SYMLINK3resok)(&((v).Resok)).Xdr(xs)\n",
   t!"\tdefault:\n",
   t!"\t\t(*SYMLINK3resfail)(&((v).Resfail)).Xdr(xs)\n",
   t!"\t}\n",
   t!"}\n"],
  [t!"func (v *Devicedata3) Xdr(xs *xdr.XdrState) {\n",
   t!"\t(*Sattr3)(&((v).Dev_attributes)).Xdr(xs)\n",
   t!"\t(*Specdata3)(&((v).Spec)).Xdr(xs)\n",
   t!"}\n"],
  [t!"func (v *Mknoddata3) Xdr(xs *xdr.XdrState) {\n",
   t!"\t(*Ftype3)(&((v).Ftype)).Xdr(xs)\n",
   t!"\tswitch (v).Ftype {\n",
   t!"\tcase NF3CHR:\n",
   t!"\t\tfallthrough\n",
   t!"\tcase NF3BLK:\n",
   t!"\t\t(*Devicedata3)(&((v).Device)).Xdr(xs)\n",
   t!"\tcase NF3SOCK:\n",
   t!"\t\tfallthrough\n",
   t!"\tcase NF3FIFO:\n",
   t!"\t\t(*Sattr3)(&((v).Pipe_attributes)).Xdr(xs)\n",
   t!"\tdefault:\n",
   t!"\t}\n",
   t!"}\n"],
  [t!"func (v *MKNOD3args) Xdr(xs *xdr.XdrState) {\n",
   t!"\t(*Diropargs3)(&((v).Where)).Xdr(xs)\n",
   t!"\t(*Mknoddata3)(&((v).What)).Xdr(xs)\n",
   t!"}\n"],
  [t!"func (v *MKNOD3resok) Xdr(xs *xdr.XdrState) {\n",
   t!"\t(*Post_op_fh3)(&((v).Obj)).Xdr(xs)\n",
   t!"\t(*Post_op_attr)(&((v).Obj_attributes)).Xdr(xs)\n",
   t!"\t(*Wcc_data)(&((v).Dir_wcc)).Xdr(xs)\n",
   t!"}\n"],
  [t!"func (v *MKNOD3resfail) Xdr(xs *xdr.XdrState) {\n",
   t!"\t(*Wcc_data)(&((v).Dir_wcc)).Xdr(xs)\n",
   t!"}\n"],
  [t!"func (v *MKNOD3res) Xdr(xs *xdr.XdrState) {\n",
   t!"\t(*Nfsstat3)(&((v).Status)).Xdr(xs)\n",
   t!"\tswitch (v).Status {\n",
   t!"\tcase NFS3_OK:\n",
   t!"\t\t(*MKNOD3resok)(&((v).Resok)).Xdr(xs)\n",
   t!"\tdefault:\n",
   t!"\t\t(*MKNOD3resfail)(&((v).Resfail)).Xdr(xs)\n",
   t!"\t}\n",
   t!"}\n"],
  [t!"func (v *REMOVE3args) Xdr(xs *xdr.XdrState) {\n",
   t!"\t(*Diropargs3)(&((v).Object)).Xdr(xs)\n",
   t!"}\n"],
  [t!"func (v *REMOVE3resok) Xdr(xs *xdr.XdrState) {\n",
   t!"\t(*Wcc_data)(&((v).Dir_wcc)).Xdr(xs)\n",
   t!"}\n"],
  [t!"func (v *REMOVE3resfail) Xdr(xs *xdr.XdrState) {\n",
   t!"\t(*Wcc_data)(&((v).Dir_wcc)).Xdr(xs)\n",
   t!"}\n"],
  [t!"func (v *REMOVE3res) Xdr(xs *xdr.XdrState) {\n",
   t!"\t(*Nfsstat3)(&((v).Status)).Xdr(xs)\n",
   t!"\tswitch (v).Status {\n",
   t!"\tcase NFS3_OK:\n",
   t!"\t\t(*REMOVE3resok)(&((v).Resok)).Xdr(xs)\n",
   t!"\tdefault:\n",
   t!"\t\t(*REMOVE3resfail)(&((v).Resfail)).Xdr(xs)\n",
   t!"\t}\n",
   t!"}\n"],
  [t!"func (v *RMDIR3args) Xdr(xs *xdr.XdrState) {\n",
   t!"\t(*Diropargs3)(&((v).Object)).Xdr(xs)\n",
   t!"}\n"],
  [t!"func (v *RMDIR3resok) Xdr(xs *xdr.XdrState) {\n",
   t!"\t(*Wcc_data)(&((v).Dir_wcc)).Xdr(xs)\n",
   t!"}\n"],
  [t!"func (v *RMDIR3resfail) Xdr(xs *xdr.XdrState) {\n",
   t!"\t(*Wcc_data)(&((v).Dir_wcc)).Xdr(xs)\n",
   t!"}\n"],
  [t!"func (v *RMDIR3res) Xdr(xs *xdr.XdrState) {\n",
   t!"\t(*Nfsstat3)(&((v).Status)).Xdr(xs)\n",
   t!"\tswitch (v).Status {\n",
   t!"\tcase NFS3_OK:\n",
   t!"\t\t(*RMDIR3resok)(&((v).Resok)).Xdr(xs)\n",
   t!"\tdefault:\n",
   t!"\t\t(*RMDIR3resfail)(&((v).Resfail)).Xdr(xs)\n",
   t!"\t}\n",
   t!"}\n"]]

def codeText3 : List (List Text) := [
  [t!"func (v *RENAME3args) Xdr(xs *xdr.XdrState) {\n",
   t!"\t(*Diropargs3)(&((v).From)).Xdr(xs)\n",
   t!"\t(*Diropargs3)(&((v).To)).Xdr(xs)\n",
   t!"}\n"],
  [t!"func (v *RENAME3resok) Xdr(xs *xdr.XdrState) {\n",
   t!"\t(*Wcc_data)(&((v).Fromdir_wcc)).Xdr(xs)\n",
   t!"\t(*Wcc_data)(&((v).Todir_wcc)).Xdr(xs)\n",
   t!"}\n"],
  [t!"func (v *RENAME3resfail) Xdr(xs *xdr.XdrState) {\n",
   t!"\t(*Wcc_data)(&((v).Fromdir_wcc)).Xdr(xs)\n",
   t!"\t(*Wcc_data)(&((v).Todir_wcc)).Xdr(xs)\n",
   t!"}\n"],
  [t!"func (v *RENAME3res) Xdr(xs *xdr.XdrState) {\n",
   t!"\t(*Nfsstat3)(&((v).Status)).Xdr(xs)\n",
   t!"\tswitch (v).Status {\n",
   t!"\tcase NFS3_OK:\n",
   t!"\t\t(*RENAME3resok)(&((v).Resok)).Xdr(xs)\n",
   t!"\tdefault:\n",
   t!"\t\t(*RENAME3resfail)(&((v).Resfail)).Xdr(xs)\n",
   t!"\t}\n",
   t!"}\n"],
  [t!"func (v *LINK3args) Xdr(xs *xdr.XdrState) {\n",
   t!"\t(*Nfs_fh3)(&((v).File)).Xdr(xs)\n",
   t!"\t(*Diropargs3)(&((v).Link)).Xdr(xs)\n",
   t!"}\n"],
  [t!"func (v *LINK3resok) Xdr(xs *xdr.XdrState) {\n",
   t!"\t(*Post_op_attr)(&((v).File_attributes)).Xdr(xs)\n",
   t!"\t(*Wcc_data)(&((v).Linkdir_wcc)).Xdr(xs)\n",
   t!"}\n"],
  [t!"func (v *LINK3resfail) Xdr(xs *xdr.XdrState) {\n",
   t!"\t(*Post_op_attr)(&((v).File_attributes)).Xdr(xs)\n",
   t!"\t(*Wcc_data)(&((v).Linkdir_wcc)).Xdr(xs)\n",
   t!"}\n"],
  [t!"func (v *LINK3res) Xdr(xs *xdr.XdrState) {\n",
   t!"\t(*Nfsstat3)(&((v).Status)).Xdr(xs)\n",
   t!"\tswitch (v).Status {\n",
   t!"\tcase NFS3_OK:\n",
   t!"\t\t(*LINK3resok)(&((v).Resok)).Xdr(xs)\n",
   t!"\tdefault:\n",
   t!"\t\t(*LINK3resfail)(&((v).Resfail)).Xdr(xs)\n",
   t!"\t}\n",
   t!"}\n"],
  [t!"func (v *READDIR3args) Xdr(xs *xdr.XdrState) {\n",
   t!"\t(*Nfs_fh3)(&((v).Dir)).Xdr(xs)\n",
   t!"\t(*Cookie3)(&((v).Cookie)).Xdr(xs)\n",
   t!"\t(*Cookieverf3)(&((v).Cookieverf)).Xdr(xs)\n",
   t!"\t(*Count3)(&((v).Count)).Xdr(xs)\n",
   t!"}\n"],
  [t!"func (v *Entry3) Xdr(xs *xdr.XdrState) {\n",
   t!"\t(*Fileid3)(&((v).Fileid)).Xdr(xs)\n",
   t!"\t(*Filename3)(&((v).Name)).Xdr(xs)\n",
   t!"\t(*Cookie3)(&((v).Cookie)).Xdr(xs)\n",
   t!"\tif xs.Encoding() {\n",
   t!"\t\topted := *(&((v).Nextentry)) != nil\n",
   t!"\t\txdr.XdrBool(xs, (*bool)(&opted))\n",
   t!"\t\tif opted {\n",
   t!"\t\t\t(*Entry3)(*(&((v).Nextentry))).Xdr(xs)\n",
   t!"\t\t}\n",
   t!"\t}\n",
   t!"\tif xs.Decoding() {\n",
   t!"\t\tvar opted bool\n",
   t!"\t\txdr.XdrBool(xs, (*bool)(&opted))\n",
   t!"\t\tif opted {\n",
   t!"\t\t\t*(&((v).Nextentry)) = new(Entry3)\n",
   t!"\t\t\t(*Entry3)(*(&((v).Nextentry))).Xdr(xs)\n",
   t!"\t\t}\n",
   t!"\t}\n",
   t!"}\n"],
  [t!"func (v *Dirlist3) Xdr(xs *xdr.XdrState) {\n",
   t!"\tif xs.Encoding() {\n",
   t!"\t\topted := *(&((v).Entries)) != nil\n",
   t!"\t\txdr.XdrBool(xs, (*bool)(&opted))\n",
   t!"\t\tif opted {\n",
   t!"\t\t\t(*Entry3)(*(&((v).Entries))).Xdr(xs)\n",
   t!"\t\t}\n",
   t!"\t}\n",
   t!"\tif xs.Decoding() {\n",
   t!"\t\tvar opted bool\n",
   t!"\t\txdr.XdrBool(xs, (*bool)(&opted))\n",
   t!"\t\tif opted {\n",
   t!"\t\t\t*(&((v).Entries)) = new(Entry3)\n",
   t!"\t\t\t(*Entry3)(*(&((v).Entries))).Xdr(xs)\n",
   t!"\t\t}\n",
   t!"\t}\n",
   t!"\txdr.XdrBool(xs, (*bool)(&((v).Eof)))\n",
   t!"}\n"],
  [t!"func (v *READDIR3resok) Xdr(xs *xdr.XdrState) {\n",
   t!"\t(*Post_op_attr)(&((v).Dir_attributes)).Xdr(xs)\n",
   t!"\t(*Cookieverf3)(&((v).Cookieverf)).Xdr(xs)\n",
   t!"\t(*Dirlist3)(&((v).Reply)).Xdr(xs)\n",
   t!"}\n"],
  [t!"func (v *READDIR3resfail) Xdr(xs *xdr.XdrState) {\n",
   t!"\t(*Post_op_attr)(&((v).Dir_attributes)).Xdr(xs)\n",
   t!"}\n"],
  [t!"func (v *READDIR3res) Xdr(xs *xdr.XdrState) {\n",
   t!"\t(*Nfsstat3)(&((v).Status)).Xdr(xs)\n",
   t!"\tswitch (v).Status {\n",
   t!"\tcase NFS3_OK:\n",
   t!"\t\t(*READDIR3resok)(&((v).Resok)).Xdr(xs)\n",
   t!"\tdefault:\n",
   t!"\t\t(*READDIR3resfail)(&((v).Resfail)).Xdr(xs)\n",
   t!"\t}\n",
   t!"}\n"],
  [t!"func (v *READDIRPLUS3args) Xdr(xs *xdr.XdrState) {\n",
   t!"\t(*Nfs_fh3)(&((v).Dir)).Xdr(xs)\n",
   t!"\t(*Cookie3)(&((v).Cookie)).Xdr(xs)\n",
   t!"\t(*Cookieverf3)(&((v).Cookieverf)).Xdr(xs)\n",
   t!"\t(*Count3)(&((v).Dircount)).Xdr(xs)\n",
   t!"\t(*Count3)(&((v).Maxcount)).Xdr(xs)\n",
   t!"}\n"],
  [t!"func (v *Entryplus3) Xdr(xs *xdr.XdrState) {\n",
   t!"\t(*Fileid3)(&((v).Fileid)).Xdr(xs)\n",
   t!"\t(*Filename3)(&((v).Name)).Xdr(xs)\n",
   t!"\t(*Cookie3)(&((v).Cookie)).Xdr(xs)\n",
   t!"\t(*Post_op_attr)(&((v).Name_attributes)).Xdr(xs)\n",
   t!"\t(*Post_op_fh3)(&((v).Name_handle)).Xdr(xs)\n",
   t!"\tif xs.Encoding() {\n",
   t!"\t\topted := *(&((v).Nextentry)) != nil\n",
   t!"\t\txdr.XdrBool(xs, (*bool)(&opted))\n",
   t!"\t\tif opted {\n",
   t!"\t\t\t(*Entryplus3)(*(&((v).Nextentry))).Xdr(xs)\n",
   t!"\t\t}\n",
   t!"\t}\n",
   t!"\tif xs.Decoding() {\n",
   t!"\t\tvar opted bool\n",
   t!"\t\txdr.XdrBool(xs, (*bool)(&opted))\n",
   t!"\t\tif opted {\n",
   t!"\t\t\t*(&((v).Nextentry)) = new(Entryplus3)\n",
   t!"\t\t\t(*Entryplus3)(*(&((v).Nextentry))).Xdr(xs)\n",
   t!"\t\t}\n",
   t!"\t}\n",
   t!"}\n"],
  [t!"func (v *Dirlistplus3) Xdr(xs *xdr.XdrState) {\n",
   t!"\tif xs.Encoding() {\n",
   t!"\t\topted := *(&((v).Entries)) != nil\n",
   t!"\t\txdr.XdrBool(xs, (*bool)(&opted))\n",
   t!"\t\tif opted {\n",
   t!"\t\t\t(*Entryplus3)(*(&((v).Entries))).Xdr(xs)\n",
   t!"\t\t}\n",
   t!"\t}\n",
   t!"\tif xs.Decoding() {\n",
   t!"\t\tvar opted bool\n",
   t!"\t\txdr.XdrBool(xs, (*bool)(&opted))\n",
   t!"\t\tif opted {\n",
   t!"\t\t\t*(&((v).Entries)) = new(Entryplus3)\n",
   t!"\t\t\t(*Entryplus3)(*(&((v).Entries))).Xdr(xs)\n",
   t!"\t\t}\n",
   t!"\t}\n",
   t!"\txdr.XdrBool(xs, (*bool)(&((v).Eof)))\n",
   t!"}\n"],
  [t!"func (v *READDIRPLUS3resok) Xdr(xs *xdr.XdrState) {\n",
   t!"\t(*Post_op_attr)(&((v).Dir_attributes)).Xdr(xs)\n",
   t!"\t(*Cookieverf3)(&((v).Cookieverf)).Xdr(xs)\n",
   t!"\t(*Dirlistplus3)(&((v).Reply)).Xdr(xs)\n",
   t!"}\n"],
  [t!"func (v *READDIRPLUS3resfail) Xdr(xs *xdr.XdrState) {\n",
   t!"\t(*Post_op_attr)(&((v).Dir_attributes)).Xdr(xs)\n",
   t!"}\n"],
  [t!"func (v *READDIRPLUS3res) Xdr(xs *xdr.XdrState) {\n",
   t!"\t(*Nfsstat3)(&((v).Status)).Xdr(xs)\n",
   t!"\tswitch (v).Status {\n",
   t!"\tcase NFS3_OK:\n",
   t!"\t\t(*READDIRPLUS3resok)(&((v).Resok)).Xdr(xs)\n",
   t!"\tdefault:\n",
   t!"\t\t(*READDIRPLUS3resfail)(&((v).Resfail)).Xdr(xs)\n",
   t!"\t}\n",
   t!"}\n"],
  [t!"func (v *FSSTAT3args) Xdr(xs *xdr.XdrState) {\n",
   t!"\t(*Nfs_fh3)(&((v).Fsroot)).Xdr(xs)\n",
   t!"}\n"],
  [t!"func (v *FSSTAT3resok) Xdr(xs *xdr.XdrState) {\n",
   t!"\t(*Post_op_attr)(&((v).Obj_attributes)).Xdr(xs)\n",
   t!"\t(*Size3)(&((v).Tbytes)).Xdr(xs)\n",
   t!"\t(*Size3)(&((v).Fbytes)).Xdr(xs)\n",
   t!"\t(*Size3)(&((v).Abytes)).Xdr(xs)\n",
   t!"\t(*Size3)(&((v).Tfiles)).Xdr(xs)\n",
   t!"\t(*Size3)(&((v).Ffiles)).Xdr(xs)\n",
   t!"\t(*Size3)(&((v).Afiles)).Xdr(xs)\n",
   t!"\t(*Uint32)(&((v).Invarsec)).Xdr(xs)\n",
   t!"}\n"],
  [t!"func (v *FSSTAT3resfail) Xdr(xs *xdr.XdrState) {\n",
   t!"\t(*Post_op_attr)(&((v).Obj_attributes)).Xdr(xs)\n",
   t!"}\n"],
  [t!"func (v *FSSTAT3res) Xdr(xs *xdr.XdrState) {\n",
   t!"\t(*Nfsstat3)(&((v).Status)).Xdr(xs)\n",
   t!"\tswitch (v).Status {\n",
   t!"\tcase NFS3_OK:\n",
   t!"\t\t(*FSSTAT3resok)(&((v).Resok)).Xdr(xs)\n",
   t!"\tdefault:\n",
   t!"\t\t(*FSSTAT3resfail)(&((v).Resfail)).Xdr(xs)\n",
   t!"\t}\n",
   t!"}\n"],
  [t!"func (v *FSINFO3args) Xdr(xs *xdr.XdrState) {\n",
   t!"\t(*Nfs_fh3)(&((v).Fsroot)).Xdr(xs)\n",
   t!"}\n"],
  [t!"func (v *FSINFO3resok) Xdr(xs *xdr.XdrState) {\n",
   t!"\t(*Post_op_attr)(&((v).Obj_attributes)).Xdr(xs)\n",
   t!"\t(*Uint32)(&((v).Rtmax)).Xdr(xs)\n",
   t!"\t(*Uint32)(&((v).Rtpref)).Xdr(xs)\n",
   t!"\t(*Uint32)(&((v).Rtmult)).Xdr(xs)\n",
   t!"\t(*Uint32)(&((v).Wtmax)).Xdr(xs)\n",
   t!"\t(*Uint32)(&((v).Wtpref)).Xdr(xs)\n",
   t!"\t(*Uint32)(&((v).Wtmult)).Xdr(xs)\n",
   t!"\t(*Uint32)(&((v).Dtpref)).Xdr(xs)\n",
   t!"\t(*Size3)(&((v).Maxfilesize)).Xdr(xs)\n",
   t!"\t(*Nfstime3)(&((v).Time_delta)).Xdr(xs)\n",
   t!"\t(*Uint32)(&((v).Properties)).Xdr(xs)\n",
   t!"}\n"],
  [t!"func (v *FSINFO3resfail) Xdr(xs *xdr.XdrState) {\n",
   t!"\t(*Post_op_attr)(&((v).Obj_attributes)).Xdr(xs)\n",
   t!"}\n"],
  [t!"func (v *FSINFO3res) Xdr(xs *xdr.XdrState) {\n",
   t!"\t(*Nfsstat3)(&((v).Status)).Xdr(xs)\n",
   t!"\tswitch (v).Status {\n",
   t!"\tcase NFS3_OK:\n",
   t!"\t\t(*FSINFO3resok)(&((v).Resok)).Xdr(xs)\n",
   t!"\tdefault:\n",
   t!"\t\t(*FSINFO3resfail)(&((v).Resfail)).Xdr(xs)\n",
   t!"\t}\n",
   t!"}\n"],
  [t!"func (v *PATHCONF3args) Xdr(xs *xdr.XdrState) {\n",
   t!"\t(*Nfs_fh3)(&((v).Object)).Xdr(xs)\n",
   t!"}\n"],
  [t!"func (v *PATHCONF3resok) Xdr(xs *xdr.XdrState) {\n",
   t!"\t(*Post_op_attr)(&((v).Obj_attributes)).Xdr(xs)\n",
   t!"\t(*Uint32)(&((v).Linkmax)).Xdr(xs)\n",
   t!"\t(*Uint32)(&((v).Name_max)).Xdr(xs)\n",
   t!"\txdr.XdrBool(xs, (*bool)(&((v).No_trunc)))\n",
   t!"\txdr.XdrBool(xs, (*bool)(&((v).Chown_restricted)))\n",
   t!"\txdr.XdrBool(xs, (*bool)(&((v).Case_insensitive)))\n",
   t!"\txdr.XdrBool(xs, (*bool)(&((v).Case_preserving)))\n",
   t!"}\n"],
  [t!"func (v *PATHCONF3resfail) Xdr(xs *xdr.XdrState) {\n",
   t!"\t(*Post_op_attr)(&((v).Obj_attributes)).Xdr(xs)\n",
   t!"}\n"],
  [t!"func (v *PATHCONF3res) Xdr(xs *xdr.XdrState) {\n",
   t!"\t(*Nfsstat3)(&((v).Status)).Xdr(xs)\n",
   t!"\tswitch (v).Status {\n",
   t!"\tcase NFS3_OK:\n",
   t!"\t\t(*PATHCONF3resok)(&((v).Resok)).Xdr(xs)\n",
   t!"\tdefault:\n",
   t!"\t\t(*PATHCONF3resfail)(&((v).Resfail)).Xdr(xs)\n",
   t!"\t}\n",
   t!"}\n"],
  [t!"func (v *COMMIT3args) Xdr(xs *xdr.XdrState) {\n",
   t!"\t(*Nfs_fh3)(&((v).File)).Xdr(xs)\n",
   t!"\t(*Offset3)(&((v).Offset)).Xdr(xs)\n",
   t!"\t(*Count3)(&((v).Count)).Xdr(xs)\n",
   t!"}\n"],
  [t!"func (v *COMMIT3resok) Xdr(xs *xdr.XdrState) {\n",
   t!"\t(*Wcc_data)(&((v).File_wcc)).Xdr(xs)\n",
   t!"\t(*Writeverf3)(&((v).Verf)).Xdr(xs)\n",
   t!"}\n"],
  [t!"func (v *COMMIT3resfail) Xdr(xs *xdr.XdrState) {\n",
   t!"\t(*Wcc_data)(&((v).File_wcc)).Xdr(xs)\n",
   t!"}\n"],
  [t!"func (v *COMMIT3res) Xdr(xs *xdr.XdrState) {\n",
   t!"\t(*Nfsstat3)(&((v).Status)).Xdr(xs)\n",
   t!"\tswitch (v).Status {\n",
   t!"\tcase NFS3_OK:\n",
   t!"\t\t(*COMMIT3resok)(&((v).Resok)).Xdr(xs)\n",
   t!"\tdefault:\n",
   t!"\t\t(*COMMIT3resfail)(&((v).Resfail)).Xdr(xs)\n",
   t!"\t}\n",
   t!"}\n"],
  [t!"func (v *Fhandle3) Xdr(xs *xdr.XdrState) {\n",
   t!"\txdr.XdrVarArray(xs, int(FHSIZE3), (*[]byte)(v))\n",
   t!"}\n"],
  [t!"func (v *Dirpath3) Xdr(xs *xdr.XdrState) {\n",
   t!"\txdr.XdrString(xs, int(MNTPATHLEN3), (*string)(v))\n",
   t!"}\n"],
  [t!"func (v *Name3) Xdr(xs *xdr.XdrState) {\n",
   t!"\txdr.XdrString(xs, int(MNTNAMLEN3), (*string)(v))\n",
   t!"}\n"],
  [t!"func (v *Mountstat3) Xdr(xs *xdr.XdrState) {\n",
   t!"\txdr.XdrU32(xs, (*uint32)(v))\n",
   t!"}\n",
   t!"\n"]]

def codeText4 : List (List Text) := [
  [t!"type MOUNT_PROGRAM_MOUNT_V3_handler interface {\n",
   t!"\tMOUNTPROC3_NULL()\n",
   t!"\tMOUNTPROC3_MNT(Dirpath3) Mountres3\n",
   t!"\tMOUNTPROC3_DUMP() Mountopt3\n",
   t!"\tMOUNTPROC3_UMNT(Dirpath3)\n",
   t!"\tMOUNTPROC3_UMNTALL()\n",
   t!"\tMOUNTPROC3_EXPORT() Exportsopt3\n",
   t!"}\n"],
  [t!"type MOUNT_PROGRAM_MOUNT_V3_handler_wrapper struct {\n",
   t!"\th MOUNT_PROGRAM_MOUNT_V3_handler\n",
   t!"}\n",
   t!"\n"],
  [t!"func (w *MOUNT_PROGRAM_MOUNT_V3_handler_wrapper) MOUNTPROC3_NULL(args *xdr.XdrState) (res xdr.Xdrable, err error) {\n",
   t!"\tvar out xdr.Void\n",
   t!"\tw.h.MOUNTPROC3_NULL()\n",
   t!"\treturn &out, nil\n",
   t!"}\n"],
  [t!"func (w *MOUNT_PROGRAM_MOUNT_V3_handler_wrapper) MOUNTPROC3_MNT(args *xdr.XdrState) (res xdr.Xdrable, err error) {\n",
   t!"\tvar in Dirpath3\n",
   t!"\tin.Xdr(args)\n",
   t!"\terr = args.Error()\n",
   t!"\tif err != nil {\n",
   t!"\t\treturn\n",
   t!"\t}\n",
   t!"\tvar out Mountres3\n",
   t!"\tout = w.h.MOUNTPROC3_MNT(in)\n",
   t!"\treturn &out, nil\n",
   t!"}\n"],
  [t!"func (w *MOUNT_PROGRAM_MOUNT_V3_handler_wrapper) MOUNTPROC3_DUMP(args *xdr.XdrState) (res xdr.Xdrable, err error) {\n",
   t!"\tvar out Mountopt3\n",
   t!"\tout = w.h.MOUNTPROC3_DUMP()\n",
   t!"\treturn &out, nil\n",
   t!"}\n"],
  [t!"func (w *MOUNT_PROGRAM_MOUNT_V3_handler_wrapper) MOUNTPROC3_UMNT(args *xdr.XdrState) (res xdr.Xdrable, err error) {\n",
   t!"\tvar in Dirpath3\n",
   t!"\tin.Xdr(args)\n",
   t!"\terr = args.Error()\n",
   t!"\tif err != nil {\n",
   t!"\t\treturn\n",
   t!"\t}\n",
   t!"\tvar out xdr.Void\n",
   t!"\tw.h.MOUNTPROC3_UMNT(in)\n",
   t!"\treturn &out, nil\n",
   t!"}\n"],
  [t!"func (w *MOUNT_PROGRAM_MOUNT_V3_handler_wrapper) MOUNTPROC3_UMNTALL(args *xdr.XdrState) (res xdr.Xdrable, err error) {\n",
   t!"\tvar out xdr.Void\n",
   t!"\tw.h.MOUNTPROC3_UMNTALL()\n",
   t!"\treturn &out, nil\n",
   t!"}\n"],
  [t!"func (w *MOUNT_PROGRAM_MOUNT_V3_handler_wrapper) MOUNTPROC3_EXPORT(args *xdr.XdrState) (res xdr.Xdrable, err error) {\n",
   t!"\tvar out Exportsopt3\n",
   t!"\tout = w.h.MOUNTPROC3_EXPORT()\n",
   t!"\treturn &out, nil\n",
   t!"}\n"],
  [t!"func MOUNT_PROGRAM_MOUNT_V3_regs(h MOUNT_PROGRAM_MOUNT_V3_handler) []xdr.ProcRegistration {\n",
   t!"\tw := &MOUNT_PROGRAM_MOUNT_V3_handler_wrapper{h}\n",
   t!"\treturn []xdr.ProcRegistration{\n",
   t!"\t\txdr.ProcRegistration{\n",
   t!"\t\t\tProg:    MOUNT_PROGRAM,\n",
   t!"\t\t\tVers:    MOUNT_V3,\n",
   t!"\t\t\tProc:    MOUNTPROC3_NULL,\n",
   t!"\t\t\tHandler: w.MOUNTPROC3_NULL,\n",
   t!"\t\t},\n",
   t!"\t\txdr.ProcRegistration{\n",
   t!"\t\t\tProg:    MOUNT_PROGRAM,\n",
   t!"\t\t\tVers:    MOUNT_V3,\n",
   t!"\t\t\tProc:    MOUNTPROC3_MNT,\n",
   t!"\t\t\tHandler: w.MOUNTPROC3_MNT,\n",
   t!"\t\t},\n",
   t!"\t\txdr.ProcRegistration{\n",
   t!"\t\t\tProg:    MOUNT_PROGRAM,\n",
   t!"\t\t\tVers:    MOUNT_V3,\n",
   t!"\t\t\tProc:    MOUNTPROC3_DUMP,\n",
   t!"\t\t\tHandler: w.MOUNTPROC3_DUMP,\n",
   t!"\t\t},\n",
   t!"\t\txdr.ProcRegistration{\n",
   t!"\t\t\tProg:    MOUNT_PROGRAM,\n",
   t!"\t\t\tVers:    MOUNT_V3,\n",
   t!"\t\t\tProc:    MOUNTPROC3_UMNT,\n",
   t!"\t\t\tHandler: w.MOUNTPROC3_UMNT,\n",
   t!"\t\t},\n",
   t!"\t\txdr.ProcRegistration{\n",
   t!"\t\t\tProg:    MOUNT_PROGRAM,\n",
   t!"\t\t\tVers:    MOUNT_V3,\n",
   t!"\t\t\tProc:    MOUNTPROC3_UMNTALL,\n",
   t!"\t\t\tHandler: w.MOUNTPROC3_UMNTALL,\n",
   t!"\t\t},\n",
   t!"\t\txdr.ProcRegistration{\n",
   t!"\t\t\tProg:    MOUNT_PROGRAM,\n",
   t!"\t\t\tVers:    MOUNT_V3,\n",
   t!"\t\t\tProc:    MOUNTPROC3_EXPORT,\n",
   t!"\t\t\tHandler: w.MOUNTPROC3_EXPORT,\n",
   t!"\t\t},\n",
   t!"\t}\n",
   t!"}\n"],
  [t!"func (v *Mountres3_ok) Xdr(xs *xdr.XdrState) {\n",
   t!"\t(*Fhandle3)(&((v).Fhandle)).Xdr(xs)\n",
   t!"\t{\n",
   t!"\t\tvar __arraysz uint32\n",
   t!"\t\txs.EncodingSetSize(&__arraysz, len(*&((v).Auth_flavors)))\n",
   t!"\t\txdr.XdrU32(xs, (*uint32)(&__arraysz))\n",
   t!"\n",
   t!"\t\tif xs.Decoding() {\n",
   t!"\t\t\t*&((v).Auth_flavors) = make([]uint32, __arraysz)\n",
   t!"\t\t}\n",
   t!"\t\tfor i := uint64(0); i < uint64(__arraysz); i++ {\n",
   t!"\t\t\txdr.XdrU32(xs, (*uint32)(&((*(&((v).Auth_flavors)))[i])))\n",
   t!"\n",
   t!"\t\t}\n",
   t!"\t}\n",
   t!"}\n"],
  [t!"func (v *Mountres3) Xdr(xs *xdr.XdrState) {\n",
   t!"\t(*Mountstat3)(&((v).Fhs_status)).Xdr(xs)\n",
   t!"\tswitch (v).Fhs_status {\n",
   t!"\tcase MNT3_OK:\n",
   t!"\t\t(*Mountres3_ok)(&((v).Mountinfo)).Xdr(xs)\n",
   t!"\tdefault:\n",
   t!"\t}\n",
   t!"}\n"],
  [t!"func (v *Mount3) Xdr(xs *xdr.XdrState) {\n",
   t!"\t(*Name3)(&((v).Ml_hostname)).Xdr(xs)\n",
   t!"\t(*Dirpath3)(&((v).Ml_directory)).Xdr(xs)\n",
   t!"\tif xs.Encoding() {\n",
   t!"\t\topted := *(&((v).Ml_next)) != nil\n",
   t!"\t\txdr.XdrBool(xs, (*bool)(&opted))\n",
   t!"\t\tif opted {\n",
   t!"\t\t\t(*Mount3)(*(&((v).Ml_next))).Xdr(xs)\n",
   t!"\t\t}\n",
   t!"\t}\n",
   t!"\tif xs.Decoding() {\n",
   t!"\t\tvar opted bool\n",
   t!"\t\txdr.XdrBool(xs, (*bool)(&opted))\n",
   t!"\t\tif opted {\n",
   t!"\t\t\t*(&((v).Ml_next)) = new(Mount3)\n",
   t!"\t\t\t(*Mount3)(*(&((v).Ml_next))).Xdr(xs)\n",
   t!"\t\t}\n",
   t!"\t}\n",
   t!"}\n"],
  [t!"func (v *Mountopt3) Xdr(xs *xdr.XdrState) {\n",
   t!"\tif xs.Encoding() {\n",
   t!"\t\topted := *(&v.P) != nil\n",
   t!"\t\txdr.XdrBool(xs, (*bool)(&opted))\n",
   t!"\t\tif opted {\n",
   t!"\t\t\t(*Mount3)(*(&v.P)).Xdr(xs)\n",
   t!"\t\t}\n",
   t!"\t}\n",
   t!"\tif xs.Decoding() {\n",
   t!"\t\tvar opted bool\n",
   t!"\t\txdr.XdrBool(xs, (*bool)(&opted))\n",
   t!"\t\tif opted {\n",
   t!"\t\t\t*(&v.P) = new(Mount3)\n",
   t!"\t\t\t(*Mount3)(*(&v.P)).Xdr(xs)\n",
   t!"\t\t}\n",
   t!"\t}\n",
   t!"}\n"],
  [t!"func (v *Groups3) Xdr(xs *xdr.XdrState) {\n",
   t!"\t(*Name3)(&((v).Gr_name)).Xdr(xs)\n",
   t!"\tif xs.Encoding() {\n",
   t!"\t\topted := *(&((v).Gr_next)) != nil\n",
   t!"\t\txdr.XdrBool(xs, (*bool)(&opted))\n",
   t!"\t\tif opted {\n",
   t!"\t\t\t(*Groups3)(*(&((v).Gr_next))).Xdr(xs)\n",
   t!"\t\t}\n",
   t!"\t}\n",
   t!"\tif xs.Decoding() {\n",
   t!"\t\tvar opted bool\n",
   t!"\t\txdr.XdrBool(xs, (*bool)(&opted))\n",
   t!"\t\tif opted {\n",
   t!"\t\t\t*(&((v).Gr_next)) = new(Groups3)\n",
   t!"\t\t\t(*Groups3)(*(&((v).Gr_next))).Xdr(xs)\n",
   t!"\t\t}\n",
   t!"\t}\n",
   t!"}\n"],
  [t!"func (v *Exports3) Xdr(xs *xdr.XdrState) {\n",
   t!"\t(*Dirpath3)(&((v).Ex_dir)).Xdr(xs)\n",
   t!"\tif xs.Encoding() {\n",
   t!"\t\topted := *(&((v).Ex_groups)) != nil\n",
   t!"\t\txdr.XdrBool(xs, (*bool)(&opted))\n",
   t!"\t\tif opted {\n",
   t!"\t\t\t(*Groups3)(*(&((v).Ex_groups))).Xdr(xs)\n",
   t!"\t\t}\n",
   t!"\t}\n",
   t!"\tif xs.Decoding() {\n",
   t!"\t\tvar opted bool\n",
   t!"\t\txdr.XdrBool(xs, (*bool)(&opted))\n",
   t!"\t\tif opted {\n",
   t!"\t\t\t*(&((v).Ex_groups)) = new(Groups3)\n",
   t!"\t\t\t(*Groups3)(*(&((v).Ex_groups))).Xdr(xs)\n",
   t!"\t\t}\n",
   t!"\t}\n",
   t!"\tif xs.Encoding() {\n",
   t!"\t\topted := *(&((v).Ex_next)) != nil\n",
   t!"\t\txdr.XdrBool(xs, (*bool)(&opted))\n",
   t!"\t\tif opted {\n",
   t!"\t\t\t(*Exports3)(*(&((v).Ex_next))).Xdr(xs)\n",
   t!"\t\t}\n",
   t!"\t}\n",
   t!"\tif xs.Decoding() {\n",
   t!"\t\tvar opted bool\n",
   t!"\t\txdr.XdrBool(xs, (*bool)(&opted))\n",
   t!"\t\tif opted {\n",
   t!"\t\t\t*(&((v).Ex_next)) = new(Exports3)\n",
   t!"\t\t\t(*Exports3)(*(&((v).Ex_next))).Xdr(xs)\n",
   t!"\t\t}\n",
   t!"\t}\n",
   t!"}\n"],
  [t!"func (v *Exportsopt3) Xdr(xs *xdr.XdrState) {\n",
   t!"\tif xs.Encoding() {\n",
   t!"\t\topted := *(&v.P) != nil\n",
   t!"\t\txdr.XdrBool(xs, (*bool)(&opted))\n",
   t!"\t\tif opted {\n",
   t!"\t\t\t(*Exports3)(*(&v.P)).Xdr(xs)\n",
   t!"\t\t}\n",
   t!"\t}\n",
   t!"\tif xs.Decoding() {\n",
   t!"\t\tvar opted bool\n",
   t!"\t\txdr.XdrBool(xs, (*bool)(&opted))\n",
   t!"\t\tif opted {\n",
   t!"\t\t\t*(&v.P) = new(Exports3)\n",
   t!"\t\t\t(*Exports3)(*(&v.P)).Xdr(xs)\n",
   t!"\t\t}\n",
   t!"\t}\n",
   t!"}\n"]]

/-- rfc1813/xdr.go -/
def codeText : List (List Text) := codeText0 ++ codeText1 ++ codeText2 ++ codeText3 ++ codeText4

end Verif.Inst.Rfc1813
