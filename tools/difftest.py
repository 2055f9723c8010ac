#!/usr/bin/env python3
"""Differential test of the model's executable parts against a transliteration of /repo into Python.

This is a test, not a proof: it looks for places where the Lean definitions do not say what the Go text says. The Python
functions below were written from the Go sources (and, for library functions, from the standard library of Python, which
implements the same standards), not from the Lean definitions. The Lean side is run by `lake env lean --run` on a driver
written to a temporary directory, on the same random inputs.

Usage: python3 tools/difftest.py [seed] [number of cases per kind]    (from /verif, after `lake build`)
"""
import base64, hashlib, hmac, json, os, random, re, struct, subprocess, sys, tempfile, unicodedata

REPO = '/repo'
DRIVER = r'''
import Verif.Model.Json
import Verif.Model.Main
import Verif.Model.DasRules
import Verif.Model.CommandLine
import Verif.Example.Ext
open Migp

def hexOf (b : Bytes) : String := "x" ++ String.ofList ((hexEncode b).map (fun c => Char.ofNat c.toNat))
def ofHex (s : String) : Bytes := (hexDecode (ascii (s.drop 1).toString)).getD []
def res (r : Res Bytes) : String := match r with | .ok b => hexOf b | .err _ => "err" | .panic _ => "panic"
def int (s : String) : Int := s.toInt?.getD 0

def answer (ws : List String) : String :=
  match ws with
  | ["mut", p, n] =>
    match Mutator.mutate Mutator.dasRules (ofHex p) (int n) with
    | .ok vs => String.intercalate "," (vs.map hexOf)
    | _ => "panic"
  | ["rule", c, pos, a, b, p] =>
    res (Mutator.applyRule ⟨ofHex c, int pos, ofHex a, ofHex b⟩ (ofHex p))
  | ["bid", u, n] =>
    match (do let h ← NewSHA256BucketHasher.hash Example.ext (ofHex u); bucketHashToID h (int n) : Res UInt32) with
    | .ok i => hexOf (BucketIDToHex i)
    | _ => "panic"
  | ["ser", u, p] => res (serializeUsernamePassword (ofHex u) (ofHex p))
  | ["enc", s, f, b] => res (NewHKDFSHA256BucketEncryptor.encrypt Example.ext (ofHex s) (UInt8.ofNat (int f).toNat) (ofHex b))
  | ["murmur", b] => toString (Murmur3.sum32 (ofHex b)).toNat
  | ["b64e", b] => hexOf (Migp.b64Encode (ofHex b))
  | ["b64d", b] => match Migp.b64Decode (ofHex b) with | some x => hexOf x | none => "err"
  | ["hexd", b] => match hexDecode (ofHex b) with | some x => hexOf x | none => "err"
  | ["utf8", b] => hexOf (Migp.toValidUTF8 (ofHex b))
  | ["quote", b] => hexOf (Json.quote (ofHex b))
  | ["lines", c, b] => String.intercalate "," ((Bufio.scannedLines (fun _ => (int c).toNat) (ofHex b)).map hexOf)
  | ["int", b] => match Migp.parseInt (ofHex b) with | some n => toString n | none => "err"
  | ["bool", b] => match Migp.parseBool (ofHex b) with | some n => toString n | none => "err"
  | ["json", b] => if (Json.parse (ofHex b)).isSome then "ok" else "err"
  | ["req", b] =>
    let r := ClientRequest.unmarshalJSON (fun _ _ => 0) (ofHex b) ClientRequest.zero
    s!"{r.1.version.toNat} {hexOf r.1.bucketID} {hexOf r.1.blindElement} {r.2}"
  | ["reqe", v, i, b] => hexOf (ClientRequest.marshalJSON ⟨UInt32.ofNat (int v).toNat, ofHex i, ofHex b⟩)
  | ["obj", sp, u, p, st, m] =>
    hexOf (clientObject (sp == "1") (ofHex u) (ofHex p) (UInt8.ofNat (int st).toNat) (if m == "nil" then none else some (ofHex m)))
  | ["cfg", b] =>
    let r := Config.unmarshalJSON (fun _ _ => 0) (ofHex b) Config.zero
    let c := r.1
    s!"{c.version.toNat} {c.bucketIDBitSize} {c.bucketHasherID.toNat} {c.slowHasherID.toNat} {c.bucketEncryptorID.toNat} {c.oprfSuite.toNat} {r.2} {hexOf c.marshalJSON}"
  | ["srb", b] =>
    match ServerResponse.unmarshalBinary (ofHex b) with
    | .ok r => s!"{r.version.toNat} {hexOf r.evaluatedElement} {hexOf r.bucketContents} {res r.marshalBinary}"
    | .err .eof => "eof"
    | .err .unexpectedEOF => "unexpected"
    | .err .elementTooShort => "short"
    | _ => "?"
  | ["split", b] => String.intercalate "," ((splitN2 (ofHex b) 58).map hexOf)
  | "flags" :: ws =>
    match flagParse ServerFlags.formal ServerFlags.defaults (ws.map ofHex) with
    | .parsed f a => s!"{hexOf f.config} {hexOf f.listen} {f.dumpConfig} {hexOf f.infile} {hexOf f.metadata} {f.numVariants} {f.usernameVariant} {String.intercalate "," (a.map hexOf)}"
    | .help => "help"
    | .bad => "bad"
  | _ => "?"

partial def loop (inp : IO.FS.Stream) : IO Unit := do
  let line ← inp.getLine
  if line.isEmpty then return
  IO.println (answer (line.trimAscii.toString.splitOn " "))
  loop inp

def main : IO Unit := do loop (← IO.getStdin)
'''

# ---------------------------------------------------------------- the Go sources, in Python

def rules():
    text = open(REPO + '/pkg/mutator/dasrules.go').read()
    return json.loads(re.search(r'`(.*?)`', text, re.S).group(1))

def murmur(data):
    M = 0xffffffff
    rot = lambda x, r: ((x << r) | (x >> (32 - r))) & M
    h, n = 0, len(data) // 4
    for i in range(n):
        k = struct.unpack_from('<I', data, 4 * i)[0]
        h ^= rot(k * 0xcc9e2d51 & M, 15) * 0x1b873593 & M
        h = (rot(h, 13) * 5 + 0xe6546b64) & M
    tail, k = data[4 * n:], 0
    for i in reversed(range(len(tail))):
        k = (k << 8) | tail[i]
    if tail:
        h ^= rot(k * 0xcc9e2d51 & M, 15) * 0x1b873593 & M
    h ^= len(data)
    h ^= h >> 16; h = h * 0x85ebca6b & M
    h ^= h >> 13; h = h * 0xc2b2ae35 & M
    return h ^ (h >> 16)

def switch_case(b):
    r = chr(b)
    cat = unicodedata.category(r)
    if cat[0] != 'L': return None
    if cat == 'Lu': return ord(r.lower()) & 255
    if cat == 'Ll':
        u = r.upper()
        return (ord(u) if len(u) == 1 else b) & 255          # simple case mapping: U+00DF has none
    return None

def change_cap(old, pos):
    new = bytearray(old)
    if pos < 0: pos += len(old)
    if 0 <= pos < len(old):
        b = switch_case(old[pos])
        if b is not None: new[pos] = b
    return bytes(new)

def delete_portion(old, pos):
    if 0 <= pos <= len(old): return old[pos:]
    if pos < 0 and len(old) + pos >= 0: return old[:len(old) + pos]
    return old

def insert(old, pos, s1):
    if len(old) == 0 and pos in (0, -1): return s1
    if pos < 0: pos += len(old) + 1
    if 0 <= pos <= len(old): return old[:pos] + s1 + old[pos:]
    return old

def replace_all(s, old, new):
    if old: return s.replace(old, new)
    out, i = [], 0                                            # bytes.ReplaceAll with an empty old: before every rune and at the end
    while i < len(s):
        n = 1
        for k in (1, 2, 3, 4):
            try:
                s[i:i + k].decode('utf-8'); n = k; break
            except UnicodeDecodeError: pass
        out.append(new + s[i:i + n]); i += n
    return b''.join(out) + new

def apply_rule(kind, pos, s1, s2, p):
    if kind == b'c': return change_cap(p, pos)
    if kind == b'd': return delete_portion(p, pos)
    if kind == b'i': return insert(p, pos, s1)
    if kind == b's': return replace_all(p, s1, s2)
    return None

RULES = [(r['ruletype'].encode(), r['position'], r['string1'].encode(), r['string2'].encode()) for r in rules()]

def mutate(p, num):
    if num < 0: return None
    out, seen = [], {murmur(p)}
    for r in RULES:
        if len(out) >= num: break
        s = apply_rule(*r, p)
        k = murmur(s)
        if k not in seen:
            seen.add(k); out.append(s)
    return out

def bucket_id(u, bits):
    if bits > 32 or bits < 0: return None
    salt = b'MIGP bucket'
    h = hashlib.sha256(struct.pack('>H', len(salt)) + salt + struct.pack('>H', len(u)) + u).digest()
    n = struct.unpack('>I', h[:4])[0]
    return b'%08x' % ((n >> (32 - bits)) & ((1 << bits) - 1))

def hkdf(secret, salt, n):
    prk = hmac.new(salt, secret, 'sha256').digest()
    out, t, i = b'', b'', 1
    while len(out) < n:
        t = hmac.new(prk, t + bytes([i]), 'sha256').digest(); out += t; i += 1
    return out[:n]

def encrypt(secret, flag, body):
    if len(body) > 255 * 32: return None
    xor = lambda a, b: bytes(x ^ y for x, y in zip(a, b))
    head = xor(bytes(20) + bytes([flag]), hkdf(secret, b'MIGP derive pad header', 21))
    return head + struct.pack('>I', len(body)) + xor(body, hkdf(secret, b'MIGP derive pad body', len(body)))

def b64d(s):
    s = s.replace(b'\n', b'').replace(b'\r', b'')
    if not re.fullmatch(rb'(?:[A-Za-z0-9+/]{4})*(?:[A-Za-z0-9+/]{2}==|[A-Za-z0-9+/]{3}=)?', s): return None
    return base64.b64decode(s)

def to_utf8(s):
    """utf8.DecodeRune over the string, one replacement per bad byte (Python replaces maximal subparts)."""
    out, i = [], 0
    while i < len(s):
        for k in (1, 2, 3, 4):
            try:
                out.append(s[i:i + k].decode('utf-8')); i += k; break
            except UnicodeDecodeError: pass
        else:
            out.append('\ufffd'); i += 1
    return ''.join(out)

def quote(s):
    out, i = ['"'], 0
    while i < len(s):
        for k in (1, 2, 3, 4):
            try:
                c = s[i:i + k].decode('utf-8'); i += k; break
            except UnicodeDecodeError: pass
        else:
            out.append('\\ufffd'); i += 1; continue
        if c in '"\\': out.append('\\' + c)
        elif c == '\n': out.append('\\n')
        elif c == '\r': out.append('\\r')
        elif c == '\t': out.append('\\t')
        elif ord(c) < 32 or c in '<>&\u2028\u2029': out.append('\\u%04x' % ord(c))
        else: out.append(c)
    return (''.join(out) + '"').encode()

def lines(b):
    out = []
    while b:
        i = b.find(b'\n')
        if i < 0: line, b, n = b, b'', len(b)
        else: line, b, n = b[:i], b[i + 1:], i + 1
        if n > 65536 - (i < 0): break                        # no newline within a full buffer of 64 KiB
        out.append(line[:-1] if line.endswith(b'\r') else line)
    return out

def parse_int(s):
    """strconv.ParseInt(s, 0, 64)"""
    t = s[1:] if s[:1] in (b'+', b'-') else s
    if not t: return None
    low = t.lower()
    if low[:2] == b'0x': ok = re.fullmatch(rb'0x(_?[0-9a-f])+', low); base, d = 16, low[2:]
    elif low[:2] == b'0b': ok = re.fullmatch(rb'0b(_?[01])+', low); base, d = 2, low[2:]
    elif low[:2] == b'0o': ok = re.fullmatch(rb'0o(_?[0-7])+', low); base, d = 8, low[2:]
    elif t[:1] == b'0' and len(t) > 1: ok = re.fullmatch(rb'0(_?[0-7])+', t); base, d = 8, t[1:]
    else: ok = re.fullmatch(rb'[0-9](_?[0-9])*', t); base, d = 10, t
    if not ok: return None
    n = int(d.replace(b'_', b''), base)
    if s[:1] == b'-': n = -n
    return n if -2 ** 63 <= n < 2 ** 63 else None

def parse_bool(s):
    return {**dict.fromkeys([b'1', b't', b'T', b'TRUE', b'true', b'True'], 'true'),
            **dict.fromkeys([b'0', b'f', b'F', b'FALSE', b'false', b'False'], 'false')}.get(s)

class Num(str): pass

def loads(b):
    def bad(_): raise ValueError
    return json.loads(to_utf8(b), parse_constant=bad, parse_int=Num, parse_float=Num, object_pairs_hook=lambda ps: ('obj', ps))

def valid(b):
    try: loads(b); return True
    except (ValueError, RecursionError): return False

def uint(v, top):
    if type(v) is Num and re.fullmatch('[0-9]+', v) and int(v) <= top: return int(v)

def request(b):
    try: v = loads(b)
    except ValueError: return 0, b'', b'', True
    if v is None: return 0, b'', b'', False
    if not (isinstance(v, tuple) and v[0] == 'obj'): return 0, b'', b'', True
    version, bucket, blind, err = 0, b'', b'', False
    fold = lambda k: k.replace('\u212a', 'k').replace('\u017f', 's')
    fold = lambda k, f=fold: ''.join(c.lower() if c.isascii() else c for c in f(k))
    for k, x in v[1]:
        k = fold(k)
        if k == 'version':
            n = uint(x, 2 ** 32 - 1)
            if n is not None: version = n
            elif x is not None: err = True
        elif k == 'bucketid':
            if type(x) is str: bucket = re.sub('[\ud800-\udfff]', '\ufffd', x).encode()
            elif x is not None: err = True
        elif k == 'blindelement':
            if x is None: blind = b''
            elif type(x) is str:
                d = b64d(x.encode('utf-8', 'surrogatepass'))
                if d is None: err = True
                else: blind = d
            elif type(x) is list:
                new = []
                for i, e in enumerate(x):
                    n = uint(e, 255)
                    if n is None:
                        n = blind[i] if i < len(blind) else 0
                        if e is not None: err = True
                    new.append(n)
                blind = bytes(new)
            else: err = True
    return version, bucket, blind, err

CONFIG = [('version', 16), ('bucketIDBitSize', 0), ('bucketHasher', 16), ('slowHasher', 16), ('bucketEncryptor', 16), ('oprfSuite', 16)]

def config(b):
    vals, err = {k: 0 for k, _ in CONFIG}, False
    try: v = loads(b)
    except ValueError: v, err = None, True
    if v is None: pass
    elif not (isinstance(v, tuple) and v[0] == 'obj'): err = True
    else:
        fold = lambda k: ''.join(c.lower() if c.isascii() else c for c in k.replace('\u212a', 'k').replace('\u017f', 's'))
        for k, x in v[1]:
            for name, bits in CONFIG:
                if fold(k) == name.lower():
                    if x is None: continue
                    if bits: n = uint(x, 2 ** bits - 1)
                    else: n = int(x) if type(x) is Num and re.fullmatch('-?[0-9]+', x) and -2 ** 63 <= int(x) < 2 ** 63 else None
                    if n is None: err = True
                    else: vals[name] = n
    out = '{' + ','.join('"%s":%d' % (k, vals[k]) for k, _ in CONFIG) + '}'
    return ' '.join([str(vals[k]) for k, _ in CONFIG] + [str(err).lower(), 'x' + out.encode().hex()])

def response(b):
    if len(b) == 0: return 'eof'
    if len(b) < 4: return 'unexpected'
    if len(b) == 4: return 'eof'
    if len(b) < 37: return 'short'
    return '%d x%s x%s x%s' % (struct.unpack('>I', b[:4])[0], b[4:37].hex(), b[37:].hex(), b.hex())

FLAGS = {b'config': 's', b'listen': 's', b'dump-config': 'b', b'infile': 's', b'metadata': 's', b'num-variants': 'i', b'username-variant': 'b'}

def flags(ws):
    vals = {b'config': b'', b'listen': b'localhost:8080', b'dump-config': 'false', b'infile': b'-', b'metadata': b'', b'num-variants': 9, b'username-variant': 'true'}
    ws = list(ws)
    while ws:
        w = ws[0]
        if len(w) < 2 or w[:1] != b'-': break
        ws.pop(0)
        if w == b'--': break
        name = w[2:] if w[:2] == b'--' else w[1:]
        if name == b'' or name[:1] in (b'-', b'='): return 'bad'
        value = None
        i = name.find(b'=', 1)
        if i > 0: name, value = name[:i], name[i + 1:]
        if name not in FLAGS: return 'help' if name in (b'help', b'h') else 'bad'
        if FLAGS[name] == 'b':
            v = 'true' if value is None else parse_bool(value)
        else:
            if value is None:
                if not ws: return 'bad'
                value = ws.pop(0)
            v = value if FLAGS[name] == 's' else parse_int(value)
        if v is None: return 'bad'
        vals[name] = v
    return ' '.join(['x' + v.hex() if isinstance(v, bytes) else str(v) for v in vals.values()] + [','.join('x' + w.hex() for w in ws)])

STATUS = {0: b'password not in breach', 1: b'password in breach', 2: b'similar password in breach', 3: b'username in breach'}

def client_object(sp, u, p, st, m):
    ms = [b'"username":' + quote(u)]
    if sp and p: ms.append(b'"password":' + quote(p))
    ms.append(b'"status":' + quote(STATUS.get(st, b'unknown breach status')))
    if m: ms.append(b'"metadata":' + quote(m))
    return b'{' + b','.join(ms) + b'}'

# ---------------------------------------------------------------- random cases

def main():
    rnd = random.Random(int(sys.argv[1]) if len(sys.argv) > 1 else 1)
    count = int(sys.argv[2]) if len(sys.argv) > 2 else 200
    hx = lambda b: 'x' + b.hex()
    show = lambda b: 'panic' if b is None else hx(b)
    raw = lambda n: bytes(rnd.randrange(256) for _ in range(rnd.randrange(n)))
    def word(n=14):
        k = rnd.randrange(4)
        if k == 0: return raw(n)
        alpha = b'abcdefgPASSWORDoaisle0123456789!@$_ ' if k < 3 else 'aé\u00ffß\u00b5\u00aaÀ\u212a\u017f<&>"\\\n\t\u2028\u20ac\U0001f600'
        s = [rnd.choice(alpha) for _ in range(rnd.randrange(n))]
        return bytes(s) if k < 3 else ''.join(s).encode()
    def number():
        return rnd.choice([str(rnd.randrange(300)), str(rnd.choice([2 ** 32 - 1, 2 ** 32, 255, 256, 0])), '-1', '1.0', '1e2', '01', '-0', '007', '1.', '.5', '1E+2'])
    def string():
        return rnd.choice(['""', '"00000a1f"', '"AQID"', '"/wA="', '"/wB="', '"AQI"', '"A\\nQID"', '"\\u0041QID"', '"\\ud800"', '"\\ud83d\\ude00"', '"\\x"', '"a', '"\t"', '"\u00e9"', '"AQ==AQ=="', '"\\/wA="'])
    def value(d=0):
        k = rnd.randrange(8)
        if k < 2: return number()
        if k < 4: return string()
        if k == 4: return rnd.choice(['null', 'true', 'false', 'nul', 'True', 'NaN', '-Infinity', ''])
        if d > 2: return '0'
        sep = rnd.choice([',', ', ', ' ,\n', ',,'] if rnd.random() < .1 else [',', ' , '])
        if k < 7: return '[' + sep.join(value(d + 1) if rnd.random() < .3 else str(rnd.randrange(256)) for _ in range(rnd.randrange(5))) + ']'
        return obj(d + 1)
    def obj(d=0):
        names = ['version', 'Version', 'bucketID', 'BUCKETID', 'buc\u212aetID', 'blindElement', 'blindelement', 'blindElement ', 'x', 'ver\\u0073ion', 'vers\u017fon', 'ver\u017fion']
        ms = ['"%s"%s%s' % (rnd.choice(names), rnd.choice([':', ' : ']), value(d)) for _ in range(rnd.randrange(6))]
        return '{' + ','.join(ms) + rnd.choice(['}'] * 15 + [',}', '', '} x'])
    cases = []
    add = lambda want, *ws: cases.append((' '.join(str(w) for w in ws), want))
    for i in range(count):
        p, n = word(), rnd.choice([0, 1, 5, 9, 50, 400])
        add(','.join(map(hx, mutate(p, n))), 'mut', hx(p), n)
        for _ in range(5):
            k, pos, a, b = rnd.choice([b'c', b'd', b'i', b's', b'x']), rnd.randrange(-8, 9), rnd.choice([b'', word(4), b'a', b'!']), word(4)
            p = word(8)
            add(show(apply_rule(k, pos, a, b, p)), 'rule', hx(k), pos, hx(a), hx(b), hx(p))
        u, n = word(40), rnd.choice([0, 1, 8, 16, 20, 31, 32, 33, -1])
        add(show(bucket_id(u, n)), 'bid', hx(u), n)
        u, p = word(30), word(30)
        add(hx(struct.pack('>H', len(u)) + u + struct.pack('>H', len(p)) + p), 'ser', hx(u), hx(p))
        s, f, b = raw(70), rnd.randrange(256), raw(100)
        add(show(encrypt(s, f, b)), 'enc', hx(s), f, hx(b))
        b = raw(40)
        add(str(murmur(b)), 'murmur', hx(b))
        e = base64.b64encode(b)
        add(hx(e), 'b64e', hx(b))
        t = bytearray(e)
        for _ in range(rnd.randrange(3)):
            t.insert(rnd.randrange(len(t) + 1), rnd.choice(b'=\n\rA/-_ '))
            if t and rnd.random() < .5: del t[rnd.randrange(len(t))]
        d = b64d(bytes(t))
        add('err' if d is None else hx(d), 'b64d', hx(bytes(t)))
        t = bytes(rnd.choice(b'0123456789abcdefABCDEFgx ') if rnd.random() < .1 else rnd.choice(b'0123456789abcdefABCDEF') for _ in range(rnd.randrange(12)))
        add(hx(bytes.fromhex(t.decode())) if re.fullmatch(rb'(?:[0-9a-fA-F]{2})*', t) else 'err', 'hexd', hx(t))
        t = b''.join(rnd.choice([word(4), raw(4), b'\xed\xa0\x80', b'\xf4\x90\x80\x80', b'\xc0\x80', b'\xe2\x82', b'\xe2\x80\xa8']) for _ in range(rnd.randrange(5)))
        add(hx(to_utf8(t).encode()), 'utf8', hx(t))
        add(hx(quote(t)), 'quote', hx(t))
        t = b''.join(rnd.choice([b'\n', b'\r\n', b'\r', b'a:b', b'user', word(6)]) for _ in range(rnd.randrange(9)))
        add(','.join(map(hx, lines(t))), 'lines', rnd.choice([1, 2, 7, 4096]), hx(t))
        t = rnd.choice([b'', b'+', b'-']) + rnd.choice([b'', b'0', b'0x', b'0X', b'0b', b'0o', b'_']) + bytes(rnd.choice(b'0123456789' if rnd.random() < .85 else b'abF_.8 ') for _ in range(rnd.choice([0, 1, 2, 5, 19, 20])))
        n = parse_int(t)
        add('err' if n is None else str(n), 'int', hx(t))
        t = rnd.choice([b'1', b't', b'T', b'TRUE', b'true', b'True', b'tRUE', b'', b'0', b'f', b'F', b'FALSE', b'false', b'False', b'no', b'01'])
        add(parse_bool(t) or 'err', 'bool', hx(t))
        for _ in range(6):
            t = rnd.choice(['', ' ', '\n', '\ufeff'] if rnd.random() < .1 else ['']) + (obj() if rnd.random() < .8 else value())
            t = t.encode()
            if rnd.random() < .2 and t:
                t = bytearray(t); t[rnd.randrange(len(t))] = rnd.randrange(256); t = bytes(t)
            add('ok' if valid(t) else 'err', 'json', hx(t))
            v, i_, b, e = request(t)
            add('%d %s %s %s' % (v, hx(i_), hx(b), str(e).lower()), 'req', hx(t))
        v, i_, b = rnd.randrange(2 ** 32), word(10), raw(40)
        add(hx(b'{"version":%d,"bucketID":%s,"blindElement":"%s"}' % (v, quote(i_), base64.b64encode(b))), 'reqe', v, hx(i_), hx(b))
        sp, u, p, st, m = rnd.randrange(2), word(), word(), rnd.randrange(6), rnd.choice([None, b'', word()])
        add(hx(client_object(sp, u, p, st, m)), 'obj', sp, hx(u), hx(p), st, 'nil' if m is None else hx(m))
        names = ['version', 'Version', 'bucketIDBitSize', 'buc\u212aetidbitsize', 'bucketHasher', 'bucketHa\u017fher', 'slowHasher', 'SLOWHASHER', 'bucketEncryptor', 'oprfSuite', 'oprfsuite', 'x', '']
        for _ in range(3):
            t = '{' + ','.join('"%s":%s' % (rnd.choice(names), rnd.choice([number(), number(), '65535', '65536', '-20', '9223372036854775807', '9223372036854775808', '-9223372036854775808', '-9223372036854775809', value()])) for _ in range(rnd.randrange(7))) + '}'
            add(config(t.encode()), 'cfg', hx(t.encode()))
        t = raw(rnd.choice([5, 6, 40, 60]))
        add(response(t), 'srb', hx(t))
        t = rnd.choice([word(), word() + b':' + word(), word() + b':' + word(5) + b':' + word(5), b':', b'::', b''])
        add(','.join(map(hx, t.split(b':', 1))), 'split', hx(t))
        ws = []
        for _ in range(rnd.randrange(4)):
            name = rnd.choice(list(FLAGS) + [b'h', b'help', b'x', b'', b'-', b'='])
            w = rnd.choice([b'-', b'--', b'', b'---'] if rnd.random() < .2 else [b'-', b'--']) + name
            if rnd.random() < .5: w += b'=' + rnd.choice([b'', b'1', b'0x10', b'true', b'F', b'a=b', b'-3', b'1_0'])
            elif rnd.random() < .5:
                ws.append(w); w = rnd.choice([b'5', b'-5', b'true', b'-infile', b'file', b'', b'0b11', b'--'])
            ws.append(w)
        add(flags(ws), 'flags', *map(hx, ws))
    for n in (65534, 65535, 65536, 65537):
        for t in (b'a' * n + b'\nb', b'a' * n, b'x\n' + b'a' * n + b'\r\nb'):
            add(','.join(map(hx, lines(t))), 'lines', 65536, hx(t))
    with tempfile.TemporaryDirectory() as d:
        path = os.path.join(d, 'Driver.lean')
        open(path, 'w').write(DRIVER)
        run = subprocess.run(['lake', 'env', 'lean', '--run', path], cwd=os.path.join(os.path.dirname(os.path.abspath(__file__)), '..', 'lean'),
                             input='\n'.join(c for c, _ in cases) + '\n', capture_output=True, text=True)
    got = run.stdout.split('\n')
    if len(got) < len(cases):
        print(run.stdout[-500:], run.stderr[-2000:]); sys.exit(1)
    bad = [(c, w, g) for (c, w), g in zip(cases, got) if w != g]
    kinds = {}
    for c, _ in cases: kinds[c.split()[0]] = kinds.get(c.split()[0], 0) + 1
    print(len(cases), 'cases', kinds)
    print(len(bad), 'differences')
    for c, w, g in bad[:15]: print(' ', c[:300], '\n    python', w[:300], '\n    lean  ', g[:300])

main()
