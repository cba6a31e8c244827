/-
Hand-written Go files of /repo, character for character.  Written by tools/embedgo.py.
-/
import Verif.Text.Scan

namespace Verif.Lang
open Verif.Text (Text)

/-- xdr/lib.go -/
def libText : List Text := [
  t!"package xdr\n",
  t!"\n",
  t!"import (\n",
  t!"\t\"encoding/binary\"\n",
  t!"\t\"errors\"\n",
  t!"\t\"fmt\"\n",
  t!"\t\"math\"\n",
  t!")\n",
  t!"\n",
  t!"type XdrState struct {\n",
  t!"\t// err != nil means error state\n",
  t!"\terr error\n",
  t!"\n",
  t!"\t// reader means we are reading; otherwise writing\n",
  t!"\treader bool\n",
  t!"\n",
  t!"\t// buf has the data to be read (or already written)\n",
  t!"\tbuf []byte\n",
  t!"}\n",
  t!"\n",
  t!"func MakeReader(buf []byte) *XdrState {\n",
  t!"\treturn &XdrState{\n",
  t!"\t\terr:    nil,\n",
  t!"\t\treader: true,\n",
  t!"\t\tbuf:    buf,\n",
  t!"\t}\n",
  t!"}\n",
  t!"\n",
  t!"func MakeWriter(buf []byte) *XdrState {\n",
  t!"\treturn &XdrState{\n",
  t!"\t\terr:    nil,\n",
  t!"\t\treader: false,\n",
  t!"\t\tbuf:    buf,\n",
  t!"\t}\n",
  t!"}\n",
  t!"\n",
  t!"func (xs *XdrState) WriteBuf() []byte {\n",
  t!"\treturn xs.buf\n",
  t!"}\n",
  t!"\n",
  t!"func (xs *XdrState) EncodingSetSize(arraysz *uint32, len int) {\n",
  t!"\tif xs.err != nil {\n",
  t!"\t\treturn\n",
  t!"\t}\n",
  t!"\n",
  t!"\tif xs.reader {\n",
  t!"\t\treturn\n",
  t!"\t}\n",
  t!"\n",
  t!"\tif len > math.MaxUint32 {\n",
  t!"\t\txs.SetError(\"length too large\")\n",
  t!"\t\treturn\n",
  t!"\t}\n",
  t!"\n",
  t!"\t*arraysz = uint32(len)\n",
  t!"}\n",
  t!"\n",
  t!"func (xs *XdrState) Encoding() bool {\n",
  t!"\treturn xs.err == nil && xs.reader == false\n",
  t!"}\n",
  t!"\n",
  t!"func (xs *XdrState) Decoding() bool {\n",
  t!"\treturn xs.err == nil && xs.reader == true\n",
  t!"}\n",
  t!"\n",
  t!"func (xs *XdrState) SetError(s string) {\n",
  t!"\txs.err = errors.New(s)\n",
  t!"}\n",
  t!"\n",
  t!"func (xs *XdrState) Error() error {\n",
  t!"\treturn xs.err\n",
  t!"}\n",
  t!"\n",
  t!"func xdrRW(xs *XdrState, v []byte) {\n",
  t!"\tif xs.err != nil {\n",
  t!"\t\treturn\n",
  t!"\t}\n",
  t!"\n",
  t!"\tif xs.reader {\n",
  t!"\t\tn := copy(v, xs.buf)\n",
  t!"\t\txs.buf = xs.buf[n:]\n",
  t!"\n",
  t!"\t\tif n < len(v) {\n",
  t!"\t\t\txs.err = fmt.Errorf(\"Not enough bytes: wanted %d, got %d\", len(v), n)\n",
  t!"\t\t}\n",
  t!"\t} else {\n",
  t!"\t\txs.buf = append(xs.buf, v...)\n",
  t!"\t}\n",
  t!"}\n",
  t!"\n",
  t!"func xdrR(xs *XdrState, n int) []byte {\n",
  t!"\tif len(xs.buf) < n {\n",
  t!"\t\txs.err = fmt.Errorf(\"Not enough bytes: wanted %d, have %d\", n, len(xs.buf))\n",
  t!"\t}\n",
  t!"\n",
  t!"\tif xs.err != nil {\n",
  t!"\t\treturn nil\n",
  t!"\t}\n",
  t!"\n",
  t!"\tres := xs.buf[:n:n]\n",
  t!"\txs.buf = xs.buf[n:]\n",
  t!"\treturn res\n",
  t!"}\n",
  t!"\n",
  t!"func XdrBool(xs *XdrState, v *bool) {\n",
  t!"\tif xs.err != nil {\n",
  t!"\t\treturn\n",
  t!"\t}\n",
  t!"\n",
  t!"\tvar buf [4]byte\n",
  t!"\tif xs.Encoding() {\n",
  t!"\t\tif *v {\n",
  t!"\t\t\tbinary.BigEndian.PutUint32(buf[:], 1)\n",
  t!"\t\t} else {\n",
  t!"\t\t\tbinary.BigEndian.PutUint32(buf[:], 0)\n",
  t!"\t\t}\n",
  t!"\t}\n",
  t!"\n",
  t!"\txdrRW(xs, buf[:])\n",
  t!"\n",
  t!"\tif xs.Decoding() {\n",
  t!"\t\tr := binary.BigEndian.Uint32(buf[:])\n",
  t!"\t\tif r == 0 {\n",
  t!"\t\t\t*v = false\n",
  t!"\t\t} else {\n",
  t!"\t\t\t*v = true\n",
  t!"\t\t}\n",
  t!"\t}\n",
  t!"}\n",
  t!"\n",
  t!"func XdrS32(xs *XdrState, v *int32) {\n",
  t!"\tif xs.err != nil {\n",
  t!"\t\treturn\n",
  t!"\t}\n",
  t!"\n",
  t!"\tvar buf [4]byte\n",
  t!"\tif xs.Encoding() {\n",
  t!"\t\tbinary.BigEndian.PutUint32(buf[:], uint32(*v))\n",
  t!"\t}\n",
  t!"\txdrRW(xs, buf[:])\n",
  t!"\tif xs.Decoding() {\n",
  t!"\t\t*v = int32(binary.BigEndian.Uint32(buf[:]))\n",
  t!"\t}\n",
  t!"}\n",
  t!"\n",
  t!"func XdrU32(xs *XdrState, v *uint32) {\n",
  t!"\tif xs.err != nil {\n",
  t!"\t\treturn\n",
  t!"\t}\n",
  t!"\n",
  t!"\tvar buf [4]byte\n",
  t!"\tif xs.Encoding() {\n",
  t!"\t\tbinary.BigEndian.PutUint32(buf[:], *v)\n",
  t!"\t}\n",
  t!"\txdrRW(xs, buf[:])\n",
  t!"\tif xs.Decoding() {\n",
  t!"\t\t*v = binary.BigEndian.Uint32(buf[:])\n",
  t!"\t}\n",
  t!"}\n",
  t!"\n",
  t!"func XdrS64(xs *XdrState, v *int64) {\n",
  t!"\tif xs.err != nil {\n",
  t!"\t\treturn\n",
  t!"\t}\n",
  t!"\n",
  t!"\tvar buf [8]byte\n",
  t!"\tif xs.Encoding() {\n",
  t!"\t\tbinary.BigEndian.PutUint64(buf[:], uint64(*v))\n",
  t!"\t}\n",
  t!"\txdrRW(xs, buf[:])\n",
  t!"\tif xs.Decoding() {\n",
  t!"\t\t*v = int64(binary.BigEndian.Uint64(buf[:]))\n",
  t!"\t}\n",
  t!"}\n",
  t!"\n",
  t!"func XdrU64(xs *XdrState, v *uint64) {\n",
  t!"\tif xs.err != nil {\n",
  t!"\t\treturn\n",
  t!"\t}\n",
  t!"\n",
  t!"\tvar buf [8]byte\n",
  t!"\tif xs.Encoding() {\n",
  t!"\t\tbinary.BigEndian.PutUint64(buf[:], *v)\n",
  t!"\t}\n",
  t!"\txdrRW(xs, buf[:])\n",
  t!"\tif xs.Decoding() {\n",
  t!"\t\t*v = binary.BigEndian.Uint64(buf[:])\n",
  t!"\t}\n",
  t!"}\n",
  t!"\n",
  t!"func XdrVarArray(xs *XdrState, maxlen int, v *[]byte) {\n",
  t!"\tif xs.err != nil {\n",
  t!"\t\treturn\n",
  t!"\t}\n",
  t!"\n",
  t!"\tif xs.Encoding() {\n",
  t!"\t\tif len(*v) > math.MaxUint32 || (maxlen >= 0 && len(*v) > maxlen) {\n",
  t!"\t\t\txs.SetError(\"var array too large\")\n",
  t!"\t\t\treturn\n",
  t!"\t\t}\n",
  t!"\n",
  t!"\t\tvar szbuf [4]byte\n",
  t!"\t\tbinary.BigEndian.PutUint32(szbuf[:], uint32(len(*v)))\n",
  t!"\t\txdrRW(xs, szbuf[:])\n",
  t!"\t\txdrRW(xs, *v)\n",
  t!"\t} else {\n",
  t!"\t\tvar szbuf [4]byte\n",
  t!"\t\txdrRW(xs, szbuf[:])\n",
  t!"\t\tsz32 := binary.BigEndian.Uint32(szbuf[:])\n",
  t!"\t\tsz := int(sz32)\n",
  t!"\n",
  t!"\t\tif (maxlen >= 0 && sz > maxlen) || sz < 0 {\n",
  t!"\t\t\txs.SetError(\"var array too large\")\n",
  t!"\t\t\treturn\n",
  t!"\t\t}\n",
  t!"\n",
  t!"\t\t*v = xdrR(xs, sz)\n",
  t!"\t}\n",
  t!"\n",
  t!"\tif len(*v)%4 != 0 {\n",
  t!"\t\txdrRW(xs, make([]byte, (4-len(*v)%4)%4))\n",
  t!"\t}\n",
  t!"}\n",
  t!"\n",
  t!"func XdrArray(xs *XdrState, v []byte) {\n",
  t!"\tif xs.err != nil {\n",
  t!"\t\treturn\n",
  t!"\t}\n",
  t!"\n",
  t!"\txdrRW(xs, v)\n",
  t!"\tif len(v)%4 != 0 {\n",
  t!"\t\txdrRW(xs, make([]byte, (4-len(v)%4)%4))\n",
  t!"\t}\n",
  t!"\n",
  t!"\t// Check that the padding values are zero?\n",
  t!"}\n",
  t!"\n",
  t!"func XdrString(xs *XdrState, maxlen int, v *string) {\n",
  t!"\tif xs.err != nil {\n",
  t!"\t\treturn\n",
  t!"\t}\n",
  t!"\n",
  t!"\tif xs.Encoding() {\n",
  t!"\t\tif len(*v) > math.MaxUint32 || (maxlen >= 0 && len(*v) > maxlen) {\n",
  t!"\t\t\txs.SetError(\"string too large\")\n",
  t!"\t\t\treturn\n",
  t!"\t\t}\n",
  t!"\n",
  t!"\t\tvar szbuf [4]byte\n",
  t!"\t\tbinary.BigEndian.PutUint32(szbuf[:], uint32(len(*v)))\n",
  t!"\t\txdrRW(xs, szbuf[:])\n",
  t!"\n",
  t!"\t\txdrRW(xs, []byte(*v))\n",
  t!"\t\txdrRW(xs, make([]byte, (4-len(*v)%4)%4))\n",
  t!"\t} else {\n",
  t!"\t\tvar szbuf [4]byte\n",
  t!"\t\txdrRW(xs, szbuf[:])\n",
  t!"\t\tsz32 := binary.BigEndian.Uint32(szbuf[:])\n",
  t!"\t\tsz := int(sz32)\n",
  t!"\n",
  t!"\t\tif (maxlen >= 0 && sz > maxlen) || sz < 0 {\n",
  t!"\t\t\txs.SetError(\"string too large\")\n",
  t!"\t\t\treturn\n",
  t!"\t\t}\n",
  t!"\n",
  t!"\t\tbuf := xdrR(xs, sz)\n",
  t!"\t\t*v = string(buf)\n",
  t!"\n",
  t!"\t\txdrRW(xs, make([]byte, (4-len(*v)%4)%4))\n",
  t!"\t}\n",
  t!"}\n"]

/-- xdr/helper.go -/
def helperText : List Text := [
  t!"package xdr\n",
  t!"\n",
  t!"func EncodeBuf(v Xdrable) (res []byte, err error) {\n",
  t!"\tx := MakeWriter(nil)\n",
  t!"\tv.Xdr(x)\n",
  t!"\treturn x.WriteBuf(), x.Error()\n",
  t!"}\n",
  t!"\n",
  t!"func DecodeBuf(buf []byte, v Xdrable) error {\n",
  t!"\tx := MakeReader(buf)\n",
  t!"\tv.Xdr(x)\n",
  t!"\treturn x.Error()\n",
  t!"}\n"]

/-- xdr/types.go -/
def typesText : List Text := [
  t!"package xdr\n",
  t!"\n",
  t!"type Xdrable interface {\n",
  t!"\tXdr(xs *XdrState)\n",
  t!"}\n",
  t!"\n",
  t!"type Bool bool\n",
  t!"type Uint32 uint32\n",
  t!"type Int32 int32\n",
  t!"type Uint64 uint64\n",
  t!"type Int64 int64\n",
  t!"type Void struct{}\n",
  t!"\n",
  t!"const TRUE Bool = true\n",
  t!"const FALSE Bool = false\n",
  t!"\n",
  t!"func (v *Bool) Xdr(xs *XdrState)   { XdrBool(xs, (*bool)(v)) }\n",
  t!"func (v *Uint32) Xdr(xs *XdrState) { XdrU32(xs, (*uint32)(v)) }\n",
  t!"func (v *Int32) Xdr(xs *XdrState)  { XdrS32(xs, (*int32)(v)) }\n",
  t!"func (v *Uint64) Xdr(xs *XdrState) { XdrU64(xs, (*uint64)(v)) }\n",
  t!"func (v *Int64) Xdr(xs *XdrState)  { XdrS64(xs, (*int64)(v)) }\n",
  t!"func (v *Void) Xdr(xs *XdrState)   {}\n",
  t!"\n",
  t!"type ProcRegistration struct {\n",
  t!"\tProg    uint32\n",
  t!"\tVers    uint32\n",
  t!"\tProc    uint32\n",
  t!"\tHandler func(args *XdrState) (res Xdrable, err error)\n",
  t!"}\n"]

/-- rfc1057/client.go -/
def clientText : List Text := [
  t!"package rfc1057\n",
  t!"\n",
  t!"import (\n",
  t!"\t\"encoding/binary\"\n",
  t!"\t\"fmt\"\n",
  t!"\t\"io\"\n",
  t!"\n",
  t!"\t\"github.com/zeldovich/go-rpcgen/xdr\"\n",
  t!")\n",
  t!"\n",
  t!"type Client struct {\n",
  t!"\trw   io.ReadWriter\n",
  t!"\txid  uint32\n",
  t!"\tprog uint32\n",
  t!"\tvers uint32\n",
  t!"}\n",
  t!"\n",
  t!"func MakeClient(rw io.ReadWriter, prog, vers uint32) *Client {\n",
  t!"\treturn &Client{\n",
  t!"\t\trw:   rw,\n",
  t!"\t\txid:  0,\n",
  t!"\t\tprog: prog,\n",
  t!"\t\tvers: vers,\n",
  t!"\t}\n",
  t!"}\n",
  t!"\n",
  t!"func (c *Client) Call(proc uint32, cred, verf Opaque_auth, args xdr.Xdrable, resp xdr.Xdrable) error {\n",
  t!"\tc.xid++\n",
  t!"\n",
  t!"\tvar req Rpc_msg\n",
  t!"\treq.Xid = c.xid\n",
  t!"\treq.Body.Mtype = CALL\n",
  t!"\treq.Body.Cbody.Rpcvers = 2\n",
  t!"\treq.Body.Cbody.Prog = c.prog\n",
  t!"\treq.Body.Cbody.Vers = c.vers\n",
  t!"\treq.Body.Cbody.Proc = proc\n",
  t!"\treq.Body.Cbody.Cred = cred\n",
  t!"\treq.Body.Cbody.Verf = verf\n",
  t!"\n",
  t!"\twr := xdr.MakeWriter(nil)\n",
  t!"\treq.Xdr(wr)\n",
  t!"\terr := wr.Error()\n",
  t!"\tif err != nil {\n",
  t!"\t\treturn err\n",
  t!"\t}\n",
  t!"\n",
  t!"\targs.Xdr(wr)\n",
  t!"\terr = wr.Error()\n",
  t!"\tif err != nil {\n",
  t!"\t\treturn err\n",
  t!"\t}\n",
  t!"\n",
  t!"\twbuf := wr.WriteBuf()\n",
  t!"\tvar hdr [4]byte\n",
  t!"\tbinary.BigEndian.PutUint32(hdr[:], (1<<31)|uint32(len(wbuf)))\n",
  t!"\t_, err = c.rw.Write(append(hdr[:], wbuf...))\n",
  t!"\tif err != nil {\n",
  t!"\t\treturn err\n",
  t!"\t}\n",
  t!"\n",
  t!"\t_, err = io.ReadFull(c.rw, hdr[:])\n",
  t!"\tif err != nil {\n",
  t!"\t\treturn err\n",
  t!"\t}\n",
  t!"\n",
  t!"\thlen := binary.BigEndian.Uint32(hdr[:])\n",
  t!"\tif hlen&(1<<31) == 0 {\n",
  t!"\t\treturn fmt.Errorf(\"fragments not supported\")\n",
  t!"\t}\n",
  t!"\n",
  t!"\tbuf := make([]byte, hlen&0x7fffffff)\n",
  t!"\t_, err = io.ReadFull(c.rw, buf)\n",
  t!"\tif err != nil {\n",
  t!"\t\treturn err\n",
  t!"\t}\n",
  t!"\n",
  t!"\trd := xdr.MakeReader(buf)\n",
  t!"\tvar res Rpc_msg\n",
  t!"\tres.Xdr(rd)\n",
  t!"\terr = rd.Error()\n",
  t!"\tif err != nil {\n",
  t!"\t\treturn err\n",
  t!"\t}\n",
  t!"\n",
  t!"\tif res.Xid != req.Xid {\n",
  t!"\t\treturn fmt.Errorf(\"xid mismatch: %d != %d\", res.Xid, req.Xid)\n",
  t!"\t}\n",
  t!"\n",
  t!"\tif res.Body.Mtype != REPLY {\n",
  t!"\t\treturn fmt.Errorf(\"expected REPLY, got %d\", res.Body.Mtype)\n",
  t!"\t}\n",
  t!"\n",
  t!"\tif res.Body.Rbody.Stat != MSG_ACCEPTED {\n",
  t!"\t\treturn fmt.Errorf(\"MSG_DENIED stat %d\", res.Body.Rbody.Rreply.Stat)\n",
  t!"\t}\n",
  t!"\n",
  t!"\tif res.Body.Rbody.Areply.Reply_data.Stat != SUCCESS {\n",
  t!"\t\treturn fmt.Errorf(\"accept_stat %d\", res.Body.Rbody.Areply.Reply_data.Stat)\n",
  t!"\t}\n",
  t!"\n",
  t!"\tresp.Xdr(rd)\n",
  t!"\terr = rd.Error()\n",
  t!"\tif err != nil {\n",
  t!"\t\treturn err\n",
  t!"\t}\n",
  t!"\n",
  t!"\treturn nil\n",
  t!"}\n"]

/-- rfc1057/server.go -/
def serverText : List Text := [
  t!"package rfc1057\n",
  t!"\n",
  t!"import (\n",
  t!"\t\"encoding/binary\"\n",
  t!"\t\"fmt\"\n",
  t!"\t\"io\"\n",
  t!"\t\"os\"\n",
  t!"\t\"sync\"\n",
  t!"\n",
  t!"\t\"github.com/zeldovich/go-rpcgen/xdr\"\n",
  t!")\n",
  t!"\n",
  t!"// reqBufPool holds temporary byte slice buffers used for incoming requests.\n",
  t!"var reqBufPool sync.Pool\n",
  t!"\n",
  t!"func getReqBuf(buflen int) []byte {\n",
  t!"\tbufi := reqBufPool.Get()\n",
  t!"\tif bufi != nil {\n",
  t!"\t\tbuf := bufi.([]byte)\n",
  t!"\t\tif buflen <= cap(buf) {\n",
  t!"\t\t\treturn buf[:buflen]\n",
  t!"\t\t}\n",
  t!"\t}\n",
  t!"\n",
  t!"\treturn make([]byte, buflen)\n",
  t!"}\n",
  t!"\n",
  t!"func putReqBuf(s []byte) {\n",
  t!"\treqBufPool.Put(s)\n",
  t!"}\n",
  t!"\n",
  t!"type ProcHandler func(args *xdr.XdrState) (res xdr.Xdrable, err error)\n",
  t!"\n",
  t!"type Server struct {\n",
  t!"\thandlers map[uint32]map[uint32]map[uint32]ProcHandler\n",
  t!"}\n",
  t!"\n",
  t!"type serverConn struct {\n",
  t!"\ts  *Server\n",
  t!"\trw io.ReadWriter\n",
  t!"}\n",
  t!"\n",
  t!"func MakeServer() *Server {\n",
  t!"\treturn &Server{\n",
  t!"\t\thandlers: make(map[uint32]map[uint32]map[uint32]ProcHandler),\n",
  t!"\t}\n",
  t!"}\n",
  t!"\n",
  t!"func (s *Server) Register(prog, vers, proc uint32, handler ProcHandler) {\n",
  t!"\t_, progok := s.handlers[prog]\n",
  t!"\tif !progok {\n",
  t!"\t\ts.handlers[prog] = make(map[uint32]map[uint32]ProcHandler)\n",
  t!"\t}\n",
  t!"\n",
  t!"\t_, versok := s.handlers[prog][vers]\n",
  t!"\tif !versok {\n",
  t!"\t\ts.handlers[prog][vers] = make(map[uint32]ProcHandler)\n",
  t!"\t}\n",
  t!"\n",
  t!"\ts.handlers[prog][vers][proc] = handler\n",
  t!"}\n",
  t!"\n",
  t!"func (s *Server) RegisterMany(regs []xdr.ProcRegistration) {\n",
  t!"\tfor _, r := range regs {\n",
  t!"\t\ts.Register(r.Prog, r.Vers, r.Proc, r.Handler)\n",
  t!"\t}\n",
  t!"}\n",
  t!"\n",
  t!"func (s *Server) Run(rw io.ReadWriter) error {\n",
  t!"\tsc := &serverConn{\n",
  t!"\t\ts:  s,\n",
  t!"\t\trw: rw,\n",
  t!"\t}\n",
  t!"\n",
  t!"\tfor {\n",
  t!"\t\tvar hdr [4]byte\n",
  t!"\t\t_, err := io.ReadFull(sc.rw, hdr[:])\n",
  t!"\t\tif err != nil {\n",
  t!"\t\t\treturn err\n",
  t!"\t\t}\n",
  t!"\n",
  t!"\t\thlen := binary.BigEndian.Uint32(hdr[:])\n",
  t!"\t\tif hlen&(1<<31) == 0 {\n",
  t!"\t\t\treturn fmt.Errorf(\"fragments not supported\")\n",
  t!"\t\t}\n",
  t!"\n",
  t!"\t\tbuflen := int(hlen & 0x7fffffff)\n",
  t!"\t\tbuf := getReqBuf(buflen)\n",
  t!"\t\t_, err = io.ReadFull(sc.rw, buf)\n",
  t!"\t\tif err != nil {\n",
  t!"\t\t\treturn err\n",
  t!"\t\t}\n",
  t!"\n",
  t!"\t\tgo sc.handleReq(buf)\n",
  t!"\t}\n",
  t!"}\n",
  t!"\n",
  t!"func (sc *serverConn) handleReq(buf []byte) {\n",
  t!"\tdefer putReqBuf(buf)\n",
  t!"\n",
  t!"\terr := sc.handleReqErr(buf)\n",
  t!"\tif err != nil {\n",
  t!"\t\tfmt.Fprintf(os.Stderr, \"%v\\n\", err)\n",
  t!"\t}\n",
  t!"}\n",
  t!"\n",
  t!"func (sc *serverConn) handleReqErr(buf []byte) error {\n",
  t!"\trd := xdr.MakeReader(buf)\n",
  t!"\n",
  t!"\tvar req Rpc_msg\n",
  t!"\treq.Xdr(rd)\n",
  t!"\terr := rd.Error()\n",
  t!"\tif err != nil {\n",
  t!"\t\treturn err\n",
  t!"\t}\n",
  t!"\n",
  t!"\tif req.Body.Mtype != CALL {\n",
  t!"\t\treturn fmt.Errorf(\"request mtype %d != CALL\", req.Body.Mtype)\n",
  t!"\t}\n",
  t!"\n",
  t!"\tvar res Rpc_msg\n",
  t!"\tvar resdata xdr.Xdrable\n",
  t!"\tres.Xid = req.Xid\n",
  t!"\tres.Body.Mtype = REPLY\n",
  t!"\n",
  t!"\tif req.Body.Cbody.Rpcvers != 2 {\n",
  t!"\t\tres.Body.Rbody.Stat = MSG_DENIED\n",
  t!"\t\tres.Body.Rbody.Rreply.Stat = RPC_MISMATCH\n",
  t!"\t} else {\n",
  t!"\t\tres.Body.Rbody.Stat = MSG_ACCEPTED\n",
  t!"\t\tvermap, progok := sc.s.handlers[req.Body.Cbody.Prog]\n",
  t!"\t\tif !progok {\n",
  t!"\t\t\tres.Body.Rbody.Areply.Reply_data.Stat = PROG_UNAVAIL\n",
  t!"\t\t\tgoto reply\n",
  t!"\t\t}\n",
  t!"\n",
  t!"\t\tprocmap, verok := vermap[req.Body.Cbody.Vers]\n",
  t!"\t\tif !verok {\n",
  t!"\t\t\tres.Body.Rbody.Areply.Reply_data.Stat = PROG_MISMATCH\n",
  t!"\t\t\tgoto reply\n",
  t!"\t\t}\n",
  t!"\n",
  t!"\t\th, procok := procmap[req.Body.Cbody.Proc]\n",
  t!"\t\tif !procok {\n",
  t!"\t\t\tres.Body.Rbody.Areply.Reply_data.Stat = PROC_UNAVAIL\n",
  t!"\t\t\tgoto reply\n",
  t!"\t\t}\n",
  t!"\n",
  t!"\t\tresdata, err = h(rd)\n",
  t!"\t\tif err != nil {\n",
  t!"\t\t\tres.Body.Rbody.Areply.Reply_data.Stat = GARBAGE_ARGS\n",
  t!"\t\t\tgoto reply\n",
  t!"\t\t}\n",
  t!"\n",
  t!"\t\tres.Body.Rbody.Areply.Reply_data.Stat = SUCCESS\n",
  t!"\t}\n",
  t!"\n",
  t!"reply:\n",
  t!"\t// Reserve 4 bytes at the front for the length\n",
  t!"\tvar reserveLen [4]byte\n",
  t!"\n",
  t!"\twr := xdr.MakeWriter(reserveLen[:])\n",
  t!"\tres.Xdr(wr)\n",
  t!"\terr = wr.Error()\n",
  t!"\tif err != nil {\n",
  t!"\t\treturn err\n",
  t!"\t}\n",
  t!"\n",
  t!"\tif resdata != nil {\n",
  t!"\t\tresdata.Xdr(wr)\n",
  t!"\t\terr = wr.Error()\n",
  t!"\t\tif err != nil {\n",
  t!"\t\t\treturn err\n",
  t!"\t\t}\n",
  t!"\t}\n",
  t!"\n",
  t!"\twbuf := wr.WriteBuf()\n",
  t!"\tbinary.BigEndian.PutUint32(wbuf[0:4], (1<<31)|uint32(len(wbuf)-4))\n",
  t!"\n",
  t!"\t_, err = sc.rw.Write(wbuf)\n",
  t!"\treturn err\n",
  t!"}\n"]

end Verif.Lang
