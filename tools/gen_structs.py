#!/usr/bin/env python3
"""Writes lean/Verif/Model/Structs.lean and lean/Verif/Model/Schema.lean from the tables in /repo."""
import re, sys
import xml.etree.ElementTree as ET
R = sys.argv[1] if len(sys.argv) > 1 else '/repo/'
O = sys.argv[2] if len(sys.argv) > 2 else '/verif/lean/Verif/Model/'

def lib():
    out = []
    L = open(R + 'ua/structs.generated.go').read().split('\n')
    i = 0
    while i < len(L):
        m = re.match(r'type (\w+) struct \{', L[i])
        if m:
            a = i + 1; f = []; i += 1
            while L[i].strip() != '}':
                w = L[i].split()
                if w: f.append((w[0], w[-1]))
                i += 1
            out.append((m.group(1), a, i + 1, f))
        i += 1
    regs = []
    for n, l in enumerate(L):
        m = re.match(r'\s*RegisterBinaryEncodingID\(reflect.TypeOf\(\(\*(\w+)\)\(nil\)\)\.Elem\(\), NewExpandedNodeID\((\w+)\)\)', l)
        if m: regs.append((m.group(1), m.group(2), n + 1))
    ids = {}
    for l in open(R + 'ua/nodeids.generated.go'):
        m = re.match(r'\s*(\w+)\s+NodeID = NewNodeIDNumeric\((\d+), (\d+)\)', l)
        if m: ids[m.group(1)] = (int(m.group(2)), int(m.group(3)))
    return out, regs, ids

def enums():
    out = []
    for n, l in enumerate(open(R + 'ua/enums.generated.go')):
        m = re.match(r'type (\w+) (\w+)', l)
        if m: cur = (m.group(1), m.group(2), n + 1, []); out.append(cur)
        m = re.match(r'\s*(\w+)\s+(\w+) = (-?\d+)\s*$', l)
        if m and m.group(2) == cur[0]: cur[3].append((m.group(1), int(m.group(3))))
    return out

def schema():
    t = ET.parse(R + 'schema/Opc.Ua.Types.bsd').getroot()
    ns = '{http://opcfoundation.org/BinarySchema/}'
    S = []; E = []
    for e in t:
        if e.tag == ns + 'StructuredType':
            S.append((e.get('Name'), e.get('BaseType'), [dict(f.attrib) for f in e if f.tag == ns + 'Field']))
        if e.tag == ns + 'EnumeratedType':
            E.append((e.get('Name'), int(e.get('LengthInBits')), [(v.get('Name'), int(v.get('Value'))) for v in e if v.tag == ns + 'EnumeratedValue']))
    return S, E

def nodeset():
    t = ET.parse(R + 'server/nodeset_1_04.xml').getroot()
    ns = '{http://opcfoundation.org/UA/2011/03/UANodeSet.xsd}'
    al = {}; dts = {}; enc = []
    for e in t:
        if e.tag == ns + 'Aliases':
            for a in e: al[a.get('Alias')] = a.text
        if e.tag == ns + 'UADataType': dts[e.get('NodeId')] = e.get('BrowseName')
    for e in t:
        if e.tag == ns + 'UAObject' and e.get('BrowseName') == 'Default Binary':
            for r in e.find(ns + 'References'):
                ty = al.get(r.get('ReferenceType'), r.get('ReferenceType'))
                if ty == 'i=38' and r.get('IsForward') == 'false': enc.append((dts[r.text], int(e.get('NodeId')[2:])))
    return enc

LEAF = {'bool': 'bool', 'int8': 'sbyte', 'uint8': 'byte', 'int16': 'int16', 'uint16': 'uint16', 'int32': 'int32', 'uint32': 'uint32',
        'int64': 'int64', 'uint64': 'uint64', 'float32': 'float', 'float64': 'double', 'string': 'string', 'time.Time': 'dateTime',
        'uuid.UUID': 'guid', 'ByteString': 'byteString', 'XMLElement': 'xmlElement', 'NodeID': 'nodeID', 'ExpandedNodeID': 'expandedNodeID',
        'StatusCode': 'statusCode', 'QualifiedName': 'qualifiedName', 'LocalizedText': 'localizedText'}
OTHER = {'Variant': 'variant', 'DataValue': 'dataValue', 'ExtensionObject': 'ext', 'DiagnosticInfo': 'diag'}

def chunks(rows, name, ty, size=36):
    o = []; names = []
    for k in range(0, len(rows), size):
        n = f'{name}{k // size}'; names.append(n)
        o.append(f'def {n} : List {ty} := [\n' + ',\n'.join(rows[k:k + size]) + ']\n')
    return '\n'.join(o), ' ++ '.join(names)

def main():
    st, regs, ids = lib(); en = enums(); S, E = schema(); enc = nodeset()
    pos = {x[0]: i for i, x in enumerate(st)}
    epos = {x[0]: i for i, x in enumerate(en)}
    assert len(pos) == len(st) and len(epos) == len(en) and all(x[1] == 'int32' for x in en)
    def f(t):
        if t.startswith('[]'): return f'(.slice {f(t[2:])})'
        if t in LEAF: return f'(.leaf .{LEAF[t]})'
        if t in OTHER: return f'.{OTHER[t]}'
        if t in epos: return f'(.enum {epos[t]})'
        return f'(.struct {pos[t]})'
    rows = [f'  -- {i}: {n}, {a}-{b}\n  ⟨"{n}", [' + ', '.join(f'("{g}", {f(t)})' for g, t in fs) + ']⟩' for i, (n, a, b, fs) in enumerate(st)]
    body, names = chunks(rows, 'structs', 'Struct')
    erows = [f'  -- {i}: {n}, {l}\n  ⟨"{n}", [' + ', '.join(f'("{c}", {v})' for c, v in vs) + ']⟩' for i, (n, k, l, vs) in enumerate(en)]
    ebody, enames = chunks(erows, 'enums', 'Enum', 16)
    for t, c, l in regs: assert ids[c][0] == 0
    rrows = [f'({pos[t]}, {ids[c][1]})' for t, c, l in regs]
    rlines = [', '.join(rrows[k:k + 12]) for k in range(0, len(rrows), 12)]
    open(O + 'Structs.lean', 'w').write(f'''import Verif.Model.Value

/-!
# The structures and enumerations of the library

Made by tools/gen_structs.py from ua/structs.generated.go (every `type ... struct` and every
`RegisterBinaryEncodingID` of its `init`, {regs[0][2]}-{regs[-1][2]}), ua/enums.generated.go and, for the numbers of the
ids, ua/nodeids.generated.go. The comments give the lines of each type. Structures and enumerations are
numbered in the order of these files.
-/

namespace Opcua.Structs

/-- The Go type of a field, as it stands in ua/structs.generated.go. -/
inductive F where
  | leaf (t : LTy)
  | variant
  | dataValue
  | ext
  | diag
  /-- a type of ua/enums.generated.go -/
  | enum (i : Nat)
  /-- a structure, embedded or as a field -/
  | struct (i : Nat)
  | slice (f : F)
  deriving DecidableEq, Repr

structure Struct where
  name : String
  fields : List (String × F)
  deriving DecidableEq, Repr

/-- A type of ua/enums.generated.go with its constants; all are `int32`. -/
structure Enum where
  name : String
  values : List (String × Nat)
  deriving DecidableEq, Repr

{ebody}
/-- ua/enums.generated.go -/
def enums : List Enum := {enames}

{body}
/-- ua/structs.generated.go -/
def structs : List Struct := {names}

/-- The calls of `RegisterBinaryEncodingID` in `init`, ua/structs.generated.go:{regs[0][2]}-{regs[-1][2]}: the structure and
the number of its id in namespace 0. -/
def registered : List (Nat × Nat) := [
  ''' + ',\n  '.join(rlines) + f''']

/-- The type the codec sees (getEncoder, ua/binary_encoder.go:94-163; getDecoder,
ua/binary_decoder.go:67-135): enumerations are of kind `int32`. -/
def F.ty (tys : Nat → List Ty) : F → Ty
  | .leaf t => .leaf t
  | .variant => .variant
  | .dataValue => .dataValue
  | .ext => .ext
  | .diag => .diag
  | .enum _ => .leaf .int32
  | .struct i => .struct (tys i)
  | .slice f => .slice (f.ty tys)

def fieldsOf (i : Nat) : List (String × F) :=
  match structs[i]? with
  | some s => s.fields
  | none => []

/-- The fields of structure `i`, looking at most `n` structures deep. -/
def fieldTys : Nat → Nat → List Ty
  | 0, _ => []
  | n + 1, i => (fieldsOf i).map (fun f => f.2.ty (fieldTys n))

/-- No structure of the library is nested deeper (`Structs.deep_enough` in Props/Structs.lean). -/
abbrev nesting : Nat := 8

def idOf (i : Nat) : Option Nat := (registered.find? (fun r => r.1 == i)).map (·.2)

def ofId (id : Nat) : Option Nat := (registered.find? (fun r => r.2 == id)).map (·.1)

/-- `FindTypeForBinaryEncodingID` for ids of namespace 0, where alone the library registers. -/
def ofNode : Option NodeID → Option Nat
  | some (.numeric 0 id) => ofId id.toNat
  | _ => none

/-- What `init` leaves in the registry (`register`, Model/Registry.lean; the calls do not panic,
`Structs.init_registers`). -/
def reg : Reg where
  fieldsOf := fieldTys nesting
  idOf := fun i => (idOf i).map (fun n => some (.numeric 0 (BitVec.ofNat 32 n)))
  tyOf := ofNode

end Opcua.Structs
''')
    rows = []
    for n, b, fs in S:
        if not b: continue
        lf = set(d.get('LengthField') for d in fs)
        assert not any('SwitchField' in d or 'Length' in d for d in fs), n
        rows.append(f'  ⟨"{n}", [' + ', '.join('("%s", "%s", %s)' % (d['Name'], d['TypeName'], ('some "%s"' % d['LengthField']) if 'LengthField' in d else 'none') for d in fs) + ']⟩')
    body, names = chunks(rows, 'types', 'StructuredType')
    erows = [f'  ⟨"{n}", {b}, [' + ', '.join(f'("{c}", {v})' for c, v in vs) + ']⟩' for n, b, vs in E]
    ebody, enames = chunks(erows, 'enumerations', 'EnumeratedType', 16)
    nrows = [f'("{n}", {i})' for n, i in enc]
    nlines = [', '.join(nrows[k:k + 4]) for k in range(0, len(nrows), 4)]
    open(O + 'Schema.lean', 'w').write(f'''/-!
# The schema of the OPC Foundation

Made by tools/gen_structs.py from schema/Opc.Ua.Types.bsd (structures with a base type and all
enumerations; the others are the built-in types of Model/Scalars.lean and Model/Value.lean) and from
server/nodeset_1_04.xml, the address space the server starts with. Nothing here is taken from the Go
code: these tables are what it is compared with.
-/

namespace Opcua.Schema

/-- `opc:StructuredType`: its fields with name, type and LengthField. -/
structure StructuredType where
  name : String
  fields : List (String × String × Option String)

/-- `opc:EnumeratedType` with LengthInBits. -/
structure EnumeratedType where
  name : String
  bits : Nat
  values : List (String × Nat)

{ebody}
def enumerations : List EnumeratedType := {enames}

{body}
def types : List StructuredType := {names}

/-- The objects "Default Binary" of server/nodeset_1_04.xml: the browse name of the data type they
encode and their number in namespace 0. -/
def encodings : List (String × Nat) := [
  ''' + ',\n  '.join(nlines) + ''']

end Opcua.Schema
''')
    messages(pos, ids)

def functions(path):
    out = {}; cur = None
    for n, l in enumerate(open(R + path)):
        m = re.match(r'func (?:\(\w+ \*?(\w+)\) )?(\w+)', l)
        if m: cur = (m.group(1), m.group(2)); out[cur] = [n + 1, n + 1, l]
        elif cur: out[cur][1] = n + 1; out[cur][2] += l
    return out

def messages(pos, ids):
    def num(c): assert ids[c][0] == 0; return ids[c][1]
    def written(fn):
        return [(a, num(b)) for a, b in re.findall(r'case \*ua\.(\w+):\s*if err := bodyEncoder\.WriteNodeID\(ua\.(\w+)\); err != nil \{\s*return ua\.BadEncodingError\s*\}\s*if err := bodyEncoder\.Encode\(re[qs]\)', fn[2])]
    def read(fn):
        return [(b, num(a)) for a, b in re.findall(r'case ua\.(\w+):\s*temp = new\(ua\.(\w+)\)', fn[2])]
    cl = functions('client/client_secure_channel.go'); sv = functions('server/server_secure_channel.go')
    cs = functions('client/client_service_set.go'); dis = functions('server/server.go')[('Server', 'handleRequest')]
    cw = cl[('clientSecureChannel', 'sendServiceRequest')]; cr = cl[('clientSecureChannel', 'readResponse')]
    sw = sv[('serverSecureChannel', 'sendServiceResponse')]; sr = sv[('serverSecureChannel', 'readRequest')]
    for fn, k in ((cw, written), (sw, written), (cr, read), (sr, read)):
        assert len(k(fn)) == len(re.findall(r'(?m)^\tcase \*?ua\.', fn[2])), fn[:2]
    methods = []
    for (r, n), (a, b, t) in cs.items():
        q = re.search(r'request \*ua\.(\w+)\)', t); x = re.search(r'return response\.\(\*ua\.(\w+)\), nil', t)
        if q and x: methods.append((n, q.group(1), x.group(1), a))
    allf = {}
    for f in ('server_service_set', 'server_secure_channel', 'session', 'subscription'): allf.update(functions(f'server/{f}.go'))
    byname = {}
    for (r, n), v in allf.items(): byname.setdefault(n, []).append(((r, n), v))
    handled = []
    for q, h in re.findall(r'case \*ua\.(\w+):\s*return (?:srv|ch)\.(\w+)\(', dis[2]):
        fs = [v for k, v in byname[h]]; assert len(fs) == 1, h
        if q == 'PublishRequest':
            for k in (('Session', 'addPublishRequest'), ('Session', 'removePublishRequest'), ('Subscription', 'publish'), ('Subscription', 'handleLatePublishRequest')): fs.append(allf[k])
        r = []
        for v in fs:
            for x in re.findall(r'&ua\.(\w+(?:Response|Fault))\{', v[2]):
                if x not in r: r.append(x)
        handled.append((q, h, r))
    assert len(handled) == len(re.findall(r'(?m)^\tcase \*ua\.', dis[2]))
    def tab(l): return ',\n  '.join(f'({pos[t]}, {i}) /- {t} -/' for t, i in l)
    open(O + 'Messages.lean', 'w').write(f'''import Verif.Model.Structs

/-!
# The messages of the services

The tables are made by tools/gen_structs.py from the switches of the code; structures are numbered as in
Model/Structs.lean and ids are of namespace 0.
-/

namespace Opcua.Messages

/-- What `sendServiceRequest` writes in front of a request, client/client_secure_channel.go:{cw[0]}-{cw[1]}. -/
def clientWrites : List (Nat × Nat) := [
  {tab(written(cw))}]

/-- What `readRequest` makes of an id, server/server_secure_channel.go:{sr[0]}-{sr[1]}. -/
def serverReads : List (Nat × Nat) := [
  {tab(read(sr))}]

/-- What `sendServiceResponse` writes in front of a response, server/server_secure_channel.go:{sw[0]}-{sw[1]}. -/
def serverWrites : List (Nat × Nat) := [
  {tab(written(sw))}]

/-- What `readResponse` makes of an id, client/client_secure_channel.go:{cr[0]}-{cr[1]}. -/
def clientReads : List (Nat × Nat) := [
  {tab(read(cr))}]

/-- A service of the client, client/client_service_set.go: what it sends and the type to which it
asserts the response. -/
structure Method where
  name : String
  request : Nat
  response : Nat
  deriving DecidableEq, Repr

def methods : List Method := [
  ''' + ',\n  '.join(f'⟨"{n}", {pos[q]}, {pos[x]}⟩ /- {a}: {q}, {x} -/' for n, q, x, a in methods) + f''']

/-- `handleRequest`, server/server.go:{dis[0]}-{dis[1]}: the requests with a handler and the types of the responses that
the handler makes. Those to a PublishRequest are made in server/session.go and server/subscription.go too. -/
def handlers : List (Nat × List Nat) := [
  ''' + ',\n  '.join(f'({pos[q]}, {[pos[x] for x in r]}) /- {q}: {h} -/' for q, h, r in handled) + f''']

/-- ServiceFault -/
abbrev fault : Nat := {pos['ServiceFault']}

/-- The types of the responses to a request; a request without a handler gets a fault with
BadServiceUnsupported, server/server.go:488-503. -/
def replies (request : Nat) : List Nat :=
  match handlers.find? (fun h => h.1 == request) with
  | some h => h.2
  | none => [fault]

/-- The id under which a switch over types writes type `t`; in the default case it returns
BadEncodingError. -/
def idFor (table : List (Nat × Nat)) (t : Nat) : Option Nat := (table.find? (fun r => r.1 == t)).map (·.2)

/-- The type a switch over ids makes of `id`; in the default case it returns BadDecodingError. -/
def typeFor (table : List (Nat × Nat)) (id : Nat) : Option Nat := (table.find? (fun r => r.2 == id)).map (·.1)

/-- The body of a message: the id, then the structure (`bodyEncoder.Encode`). -/
def write (table : List (Nat × Nat)) (t : Nat) (fs : List Val) : Option Bytes :=
  match idFor table t with
  | none => none
  | some id =>
    match encode Structs.reg (.struct (Structs.reg.fieldsOf t)) (.struct fs) with
    | none => none
    | some e => some (writeNodeID (some (.numeric 0 (BitVec.ofNat 32 id))) ++ e)

/-- The number of an id of namespace 0; all ids of the switches are such. -/
def number : Option NodeID → Option Nat
  | some (.numeric ns n) => if ns = 0 then some n.toNat else none
  | _ => none

/-- Reading the body of a message: the id, then the structure it stands for. -/
def read (table : List (Nat × Nat)) (fuel : Nat) : Dec (Nat × Val) := do
  let id ← readNodeID
  match (number id).bind (typeFor table) with
  | none => Dec.fail
  | some t => do
    let v ← decode Structs.reg fuel (.struct (Structs.reg.fieldsOf t))
    return (t, v)

end Opcua.Messages
''')

main()
