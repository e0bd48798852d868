#!/usr/bin/env python3
"""Translate the generated protocol parsers of /repo into Lean schema definitions.

Reads /repo/src/versions/protocol{87702,75689}/mod.rs as text.  Every `parse` / `parse_<field>`
function must match, token for token (white space, comments and tracing macros removed), one of
the templates below; anything else aborts.  Output: /verif/lean/Verif/Gen/*.lean.
"""
import re, sys, os, collections
REPO = '/repo/src/versions'
OUT = os.path.join(os.path.dirname(os.path.abspath(__file__)), '..', 'lean', 'Verif', 'Gen')

def die(*a):
    print('EXTRACT ERROR', *a, file=sys.stderr); sys.exit(1)

def norm(body):
    s = '\n'.join(body)
    s = re.sub(r'tracing::\w+!\((?:[^()"]|"(?:[^"\\]|\\.)*"|\((?:[^()]|\([^()]*\))*\))*\);', '', s)
    s = re.sub(r'//[^\n]*', '', s)
    return re.sub(r'\s+', ' ', s)

def canon(s):
    s = re.sub(r'\s*([(){},;:<>=?&|!.\[\]/*+-])\s*', r'\1', s)
    return s.replace(',)', ')').replace(',}', '}').strip()

class Ty: pass

def load(path, lo, hi):
    """types in order: name -> Ty(kind struct/enum, fields, fns, line range)"""
    L = open(path).read().split('\n')
    types = collections.OrderedDict()
    i = lo - 1
    while i < hi:
        m = re.match(r'    pub (struct|enum) (\w+) ?(\{\}|\{|;)', L[i])
        if m:
            t = Ty(); t.kind, t.name = m.group(1), m.group(2); t.lo = i + 1
            t.decl = []
            if m.group(3) == '{':
                j = i + 1
                while L[j] != '    }':
                    t.decl.append(L[j].strip()); j += 1
                i = j
            t.decl = [d for d in t.decl if d and not d.startswith('#') and not d.startswith('//')]
            t.fns = collections.OrderedDict(); t.hi = i + 1
            types[t.name] = t
        m = re.match(r'    impl (\w+) \{(\})?', L[i])
        if m:
            t = types[m.group(1)]
            if not m.group(2):
                j = i + 1
                while L[j] != '    }':
                    fm = re.match(r'        pub fn (\w+)\(', L[j])
                    if fm:
                        k = j
                        while L[k] != '        }': k += 1
                        if fm.group(1) in ('read_events', 'parse_event_triplet'):
                            # hand-written, modelled in Verif/Events.lean
                            j = k + 1; continue
                        c = canon(norm(L[j:k+1]))
                        sig, body = c[:c.index('{')], c[c.index('{')+1:-1]
                        ret = re.search(r'->S2ProtoResult<(.*)>$', sig)
                        if not ret: die(path, j+1, 'signature', sig)
                        t.fns[fm.group(1)] = (j+1, k+1, sig, ret.group(1), body)
                        j = k
                    elif L[j].strip() and not re.match(r'\s*#\[tracing::instrument', L[j]) and not re.match(r'\s*(//|\w.*peek|name|level|skip|fields|\)\])', L[j]):
                        die(path, j+1, 'unexpected line in impl', L[j])
                    j += 1
                i = j; t.hi = i + 1
        i += 1
    return types

NUM = r'(\d+)(?:usize|i64)?'
CAP = r'let max_initial_capacity=MAX_INITIAL_CAPACITY_BYTES/std::mem::size_of::<\w+>\(\)\.max\(1\);let mut array=Vec::with_capacity\(array_length\.min\(max_initial_capacity\)\);'
def fm(pat, s): return re.fullmatch(pat, s)

# ---------------------------------------------------------------- byte aligned
def vint(k):
    if k not in ('u8', 'u16', 'u32', 'u64', 'i32', 'i64'): die('int kind', k)
    return f'.int .{k}'

def ba_field(t, f, env):
    ln, hi, sig, ret, b = t.fns['parse_' + f]
    if not sig.startswith(f'pub fn parse_{f}(input:&[u8])->'): die(ln, sig)
    m = fm(r'&\[u8\],(.*)', ret)
    if not m: die(ln, 'ret', ret)
    rt = m.group(1)
    F = re.escape(f)
    m = fm(rf'let\(tail,{F}\)=tagged_vlq_int\(input\)\?;Ok\(\(tail,(\w+)::try_from\({F}\)\?\)\)', b)
    if m:
        if m.group(1) != rt: die(ln, rt)
        return vint(rt)
    if fm(rf'let\(tail,{F}\)=tagged_vlq_int\(input\)\?;Ok\(\(tail,{F}\)\)', b):
        if rt != 'i64': die(ln, rt)
        return vint('i64')
    for fn, ty, r in (('tagged_blob', '.blob', 'Vec<u8>'), ('tagged_bool', '.bool', 'bool'), ('tagged_fourcc', '.fourcc', 'u32')):
        if b == f'let(tail,{f})={fn}(input)?;Ok((tail,{f}))':
            if rt != r: die(ln, rt)
            return ty
    m = fm(rf'let\(tail,{F}\)=(\w+)::parse\(input\)\?;Ok\(\(tail,{F}\)\)', b)
    if m:
        if rt != m.group(1): die(ln, rt)
        return env(m.group(1))
    pre = f'let(tail,_)=validate_opt_tag(input)?;let(tail,is_provided)=nom::number::complete::u8(tail)?;let(tail,{f})=if is_provided!=0{{'
    post = f'}}else{{(tail,None)}};Ok((tail,{f}))'
    if b.startswith(pre) and b.endswith(post):
        inner = b[len(pre):-len(post)]
        m = fm(r'Option<(.*)>', rt)
        if not m: die(ln, rt)
        it = m.group(1)
        if inner == 'let(tail,res)=tagged_vlq_int(tail)?;(tail,Some(<_>::try_from(res)?))': return f'.opt ({vint(it)})'
        if inner == 'let(tail,res)=tagged_blob(tail)?;(tail,Some(res))' and it == 'Vec<u8>': return '.opt .blob'
        if inner == 'let(tail,res)=tagged_bool(tail)?;(tail,Some(res))' and it == 'bool': return '.opt .bool'
        a = fm(r'let\(tail,_\)=validate_array_tag\(tail\)\?;let\(mut tail,array_length\)=parse_vlq_int\(tail\)\?;let array_length=array_length as usize;' + CAP +
               r'for _ in 0\.\.array_length\{let\(new_tail,data\)=([\w:]+)\(tail\)\?;tail=new_tail;array\.push\((.*)\);\}\(tail,Some\(array\)\)', inner)
        if a:
            em = fm(r'Vec<(.*)>', it)
            if not em: die(ln, it)
            return f'.opt (.arr ({ba_elem(ln, a.group(1), a.group(2), em.group(1), env)}))'
    a = fm(r'let\(tail,_\)=validate_array_tag\(input\)\?;let\(mut tail,array_length\)=parse_vlq_int\(tail\)\?;let array_length=array_length as usize;' + CAP +
           r'for _ in 0\.\.array_length\{let\(new_tail,data\)=([\w:]+)\(tail\)\?;tail=new_tail;array\.push\((.*)\);\}Ok\(\(tail,array\)\)', b)
    if a:
        em = fm(r'Vec<(.*)>', rt)
        if not em: die(ln, rt)
        return f'.arr ({ba_elem(ln, a.group(1), a.group(2), em.group(1), env)})'
    die(t.name, f, ln, b)

def ba_elem(ln, fn, push, et, env):
    if fn == 'tagged_vlq_int' and push in ('data.try_into()?', '<_>::try_from(data)?'): return vint(et)
    if fn == 'tagged_blob' and push == 'data' and et == 'Vec<u8>': return '.blob'
    if fn.endswith('::parse') and push == 'data' and et == fn[:-7]: return env(et)
    die(ln, 'elem', fn, push, et)

def ba_parse(t, env):
    ln, hi, sig, ret, b = t.fns['parse']
    if sig != 'pub fn parse(input:&[u8])->S2ProtoResult<&[u8],Self>': die(ln, sig)
    # struct
    pre = 'let(tail,_)=validate_struct_tag(input)?;let(mut tail,struct_field_count)=parse_vlq_int(tail)?;'
    if b.startswith(pre):
        s = b[len(pre):]
        decls = []
        while True:
            m = re.match(r'let mut (\w+):Option<(.+?)>=(None|Some\(None\));', s)
            if not m: break
            decls.append((m.group(1), m.group(2), m.group(3))); s = s[m.end():]
        pre2 = 'for i in 0..(struct_field_count as usize){let(new_tail,field_tag)=parse_vlq_int(tail)?;tail=new_tail;match field_tag{'
        if not s.startswith(pre2): die(ln, 'loop', s[:200])
        s = s[len(pre2):]
        arms = []
        for f, ty, ini in decls:
            m = re.match(r'(\d+)=>\{', s)
            if not m: die(ln, 'arm', f, s[:200])
            tag = m.group(1); s = s[m.end():]
            cond = f'if {f}.is_none(){{' if ini == 'None' else f'if let Some(None)={f}{{'
            body = cond + f'let(new_tail,parsed_{f})=Self::parse_{f}(tail)?;tail=new_tail;{f}=Some(parsed_{f});continue;}}else{{return Err(S2ProtocolError::DuplicateTag(String::from("{f}"),'
            if not s.startswith(body): die(ln, 'arm body', f, s[:400], body)
            s = s[len(body):]
            m = re.match(r'(\d+)\)\);\}\}', s)
            if not m: die(ln, 'dup', f, s[:100])
            dup = m.group(1); s = s[m.end():]
            arms.append((tag, f, dup, ini, ty))
        post = '_=>{return Err(S2ProtocolError::UnknownTag(field_tag));}}}'
        if not s.startswith(post): die(ln, 'post', s[:200])
        s = s[len(post):]
        kinds = {}
        m = fm(r'let res=Self\{(.*)\};Ok\(\(tail,res\)\)', s) or fm(r'Ok\(\(tail,Self\{(.*)\}\)\)', s)
        if not m: die(ln, 'end', s)
        rest = m.group(1)
        for k, (f, ty, ini) in enumerate(decls):
            if k: 
                if not rest.startswith(','): die(ln, rest[:100])
                rest = rest[1:]
            a = f'{f}:ok_or_return_missing_field_err!({f})'
            d = f'{f}:{f}.unwrap_or(b""[..].to_vec())'
            if rest.startswith(a): rest = rest[len(a):]; kinds[f] = '.mandatory' if ini == 'None' else '.optional'
            elif rest.startswith(d) and ini == 'None': rest = rest[len(d):]; kinds[f] = '(.dflt (.bytes []))'
            else: die(ln, 'self', rest[:100])
        if rest: die(ln, rest)
        declf = [re.fullmatch(r'pub (\w+): (.*),', d).groups() for d in t.decl]
        if [f for f, _ in declf] != [f for f, _, _ in decls]: die(ln, 'field order differs from declaration')
        out = '.struct <|\n'
        for tag, f, dup, ini, ty in arms:
            out += f'    .cons {tag} "{f}" {dup} {kinds[f]} ({ba_field(t, f, env)}) <|\n'
        return out + '    .nil', None
    m = fm(r'let\(tail,_\)=validate_array_tag\(input\)\?;let\(mut tail,array_length\)=parse_vlq_int\(tail\)\?;let array_length=array_length as usize;' + CAP +
           r'for _ in 0\.\.array_length\{let\(new_tail,data\)=([\w:]+)\(tail\)\?;tail=new_tail;array\.push\((.*)\);\}Ok\(\(tail,Self\{value:array\}\)\)', b)
    if m:
        vm = fm(r'pub value: Vec<(.*)>,', t.decl[0])
        return f'.arr ({ba_elem(ln, m.group(1), m.group(2), vm.group(1), env)})', None
    m = fm(r'let\(tail,_\)=validate_(int|choice)_tag\(input\)\?;let\(tail,variant_tag\)=parse_vlq_int\(tail\)\?;match variant_tag\{(.*)_=>\{Err\(S2ProtocolError::UnknownTag\(variant_tag\)\)\}\}', b)
    if m:
        s = m.group(2); out = f'.choice {"true" if m.group(1)=="int" else "false"} <|\n'; names = []
        while s:
            a = re.match(r'(\d+)=>\{Ok\(\(tail,Self::(\w+)\)\)\}', s)
            if a: ty = '.null'
            else:
                a = re.match(r'(\d+)=>\{let\(tail,res\)=tagged_vlq_int\(tail\)\?;Ok\(\(tail,Self::(\w+)\((\w+)::try_from\(res\)\?\)\)\)\}', s)
                if a: ty = vint(a.group(3))
                else:
                    a = re.match(r'(\d+)=>\{let\(tail,res\)=(\w+)::parse\(tail\)\?;Ok\(\(tail,Self::(\w+)\(res\)\)\)\}', s)
                    if not a: die(ln, 'variant', s[:300])
                    ty = env(a.group(2))
            vn = a.group(3) if ty not in ('.null',) and not ty.startswith('.int') else a.group(2)
            names.append((a.group(1), vn))
            out += f'    .cons {a.group(1)} ({ty}) <| -- {vn}\n'
            s = s[a.end():]
        return out + '    .nil', names
    die(t.name, ln, b)

# ---------------------------------------------------------------- bit packed
OPTPRE = 'let(tail,is_provided):((&[u8],usize),bool)=parse_bool(input)?;'
def bp_field(t, f, env):
    ln, hi, sig, ret, b = t.fns['parse_' + f]
    if not sig.startswith(f'pub fn parse_{f}(input:(&[u8],usize))->'): die(ln, sig)
    m = fm(r'\(&\[u8\],usize\),(.*)', ret)
    if not m: die(ln, ret)
    rt = m.group(1); F = re.escape(f)
    m = fm(rf'let\(tail,{F}\)=(\w+)::parse\(input\)\?;Ok\(\(tail,{F}\)\)', b)
    if m:
        if m.group(1) != rt: die(ln, rt)
        return env(rt)
    if b == f'let(tail,{f})=parse_bool(input)?;Ok((tail,{f}))':
        if rt != 'bool': die(ln, rt)
        return '.bool'
    if b == f'let(tail,{f})=take_fourcc(input)?;Ok((tail,{f}))':
        if rt != 'Vec<u8>': die(ln, rt)
        return '.fourcc'
    m = fm(rf'let\(tail,{F}\)=parse_packed_int\(input,(-?\d+),{NUM}\)\?;Ok\(\(tail,{F}\)\)', b)
    if m:
        if rt != 'i64': die(ln, rt)
        return f'.int ({m.group(1)}) {m.group(2)}'
    m = fm(rf'let\(mut tail,array_length\)=take_n_bits_into_i64\(input,{NUM}\)\?;let array_length=array_length as usize;let mut array=vec!\[\];for _ in 0\.\.array_length\{{let\(new_tail,data\)=take_unaligned_byte\(tail\)\?;tail=new_tail;array\.push\(data\);\}}Ok\(\(tail,array\)\)', b)
    if m:
        if rt != 'Vec<u8>': die(ln, rt)
        return f'.byteArr {m.group(1)}'
    m = fm(rf'let\(mut tail,array_length\)=take_n_bits_into_i64\(input,{NUM}\)\?;let array_length=array_length as usize;let mut array=vec!\[\];for _ in 0\.\.array_length\{{let\(new_tail,data\)=(\w+)::parse\(tail\)\?;tail=new_tail;array\.push\(data\);\}}Ok\(\(tail,array\)\)', b)
    if m:
        if rt != f'Vec<{m.group(2)}>': die(ln, rt)
        return f'.arr {m.group(1)} ({env(m.group(2))})'
    pre = OPTPRE + f'let(tail,{f})=if is_provided{{'
    post = f'}}else{{(tail,None)}};Ok((tail,{f}))'
    if b.startswith(pre) and b.endswith(post):
        inner = b[len(pre):-len(post)]
        it = fm(r'Option<(.*)>', rt).group(1)
        m = fm(r'let\(tail,res\)=(\w+)::parse\(tail\)\?;\(tail,Some\(res\)\)', inner)
        if m and m.group(1) == it: return f'.opt ({env(it)})'
        if inner == 'let(tail,res)=parse_bool(tail)?;(tail,Some(res))' and it == 'bool': return '.opt .bool'
        m = fm(rf'let\(tail,res\)=parse_packed_int\(input,(-?\d+),{NUM}\)\?;\(tail,Some\(res\)\)', inner)
        if m and it == 'i64': return f'.optRewind (.int ({m.group(1)}) {m.group(2)})'
        m = fm(rf'let\(mut tail,array_length\)=take_n_bits_into_i64\(input,{NUM}\)\?;let array_length=array_length as usize;' + CAP +
               r'for _ in 0\.\.array_length\{let\(new_tail,data\)=(\w+)::parse\(tail\)\?;tail=new_tail;array\.push\(data\);\}\(tail,Some\(array\)\)', inner)
        if m and it == f'Vec<{m.group(2)}>': return f'.optRewind (.arr {m.group(1)} ({env(m.group(2))}))'
    die(t.name, f, ln, rt, b)

def bp_parse(t, env):
    ln, hi, sig, ret, b = t.fns['parse']
    if sig != 'pub fn parse(input:(&[u8],usize))->S2ProtoResult<(&[u8],usize),Self>': die(ln, sig)
    m = fm(rf'let str_size_num_bits:usize={NUM};let\(tail,str_size\)=parse_packed_int\(input,0,str_size_num_bits\)\?;let\(tail,_\)=byte_align\(tail\)\?;let\(tail,value\)=take_bit_array\(tail,str_size as usize\*8usize\)\?;Ok\(\(tail,Self\{{value\}}\)\)', b)
    if m: return f'.blob {m.group(1)}', None
    m = fm(rf'let offset:i64=(-?\d+);let num_bits:usize={NUM};let\(tail,value\)=parse_packed_int\(input,offset,num_bits\)\?;Ok\(\(tail,Self\{{value\}}\)\)', b)
    if m:
        if t.decl != ['pub value: i64,']: die(ln, t.decl)
        return f'.int ({m.group(1)}) {m.group(2)}', None
    m = fm(rf'let bitarray_length_bits:usize={NUM};let\(tail,bitarray_length\)=take_n_bits_into_i64\(input,bitarray_length_bits\)\?;let\(tail,value\)=take_n_bits_into_i64\(tail,bitarray_length as usize\)\?;Ok\(\(tail,Self\{{value\}}\)\)', b)
    if m: return f'.bitsI64 {m.group(1)}', None
    m = fm(rf'let bitarray_length_bits:usize={NUM};let\(tail,bitarray_length\)=take_n_bits_into_i64\(input,bitarray_length_bits\)\?;let\(tail,value\)=take_bit_array\(tail,bitarray_length as usize\)\?;Ok\(\(tail,Self\{{value\}}\)\)', b)
    if m: return f'.bitsVec {m.group(1)}', None
    m = fm(rf'let\(tail,_\)=byte_align\(input\)\?;let num_bits:usize={NUM}\*{NUM};let\(tail,value\)=take_bit_array\(tail,num_bits\)\?;Ok\(\(tail,Self\{{value\}}\)\)', b)
    if m:
        if m.group(2) == '8': return f'.aligned {m.group(1)}', None
        die(ln, b)
    m = fm(rf'let array_length_num_bits:usize={NUM};let\(mut tail,array_length\)=parse_packed_int\(input,0,array_length_num_bits\)\?;let array_length=array_length as usize;' + CAP +
           r'for _ in 0\.\.array_length\{let\(new_tail,data\)=(\w+)::parse\(tail\)\?;tail=new_tail;array\.push\(data\);\}Ok\(\(tail,Self\{value:array\}\)\)', b)
    if m:
        if t.decl != [f'pub value: Vec<{m.group(2)}>,']: die(ln, t.decl)
        return f'.arr {m.group(1)} ({env(m.group(2))})', None
    m = fm(r'let\(tail,value\)=(\w+)::parse\(input\)\?;Ok\(\(tail,Self\{value\}\)\)', b)
    if m:
        if t.decl != [f'pub value: {m.group(1)},']: die(ln, t.decl)
        return env(m.group(1)), None
    if b == 'let tail=input;Ok((tail,Self{}))': return '.struct .nil', None
    m = fm(rf'(?:let offset=0i64;)?let num_bits:usize={NUM};let\(tail,variant_tag\)=parse_packed_int\(input,(?:offset|0),num_bits\)\?;match variant_tag\{{(.*)_=>\{{Err\(S2ProtocolError::UnknownTag\(variant_tag\)\)\}}\}}', b)
    if m:
        s = m.group(2); out = f'.choice {m.group(1)} <|\n'; names = []
        V = [(r'(\d+)=>\{Ok\(\(tail,Self::(?P<v>\w+)\)\)\}', lambda a: '.null'),
             (r'(\d+)=>\{let\(tail,res\)=(?P<t>\w+)::parse\(tail\)\?;Ok\(\(tail,Self::(?P<v>\w+)\(res\)\)\)\}', lambda a: env(a.group('t'))),
             (r'(\d+)=>\{let\(tail,res\)=take_null\(tail\)\?;Ok\(\(tail,Self::(?P<v>\w+)\(res\)\)\)\}', lambda a: '.null'),
             (r'(\d+)=>\{let\(tail,res\)=parse_bool\(tail\)\?;Ok\(\(tail,Self::(?P<v>\w+)\(res\)\)\)\}', lambda a: '.bool'),
             (r'(\d+)=>\{let\(tail,is_provided\):\(\(&\[u8\],usize\),bool\)=parse_bool\(tail\)\?;if is_provided\{let\(tail,res\)=(?P<t>\w+)::parse\(tail\)\?;Ok\(\(tail,Self::(?P<v>\w+)\(Some\(res\)\)\)\)\}else\{Ok\(\(tail,Self::(?P=v)\(None\)\)\)\}\}', lambda a: f'.opt ({env(a.group("t"))})')]
        while s:
            for p, k in V:
                a = re.match(p, s)
                if a: break
            else: die(t.name, ln, 'variant', s[:300])
            names.append((a.group(1), a.group('v')))
            out += f'    .cons {a.group(1)} ({k(a)}) <| -- {a.group("v")}\n'
            s = s[a.end():]
        return out + '    .nil', names
    # struct
    s = b
    if s.startswith('let mut tail=input;'):
        s = s[len('let mut tail=input;'):]
        decls = []
        while True:
            m = re.match(r'let mut (\w+):Option<(.+?)>=(None|Some\(None\));', s)
            if not m: break
            decls.append((m.group(1), m.group(2), m.group(3))); s = s[m.end():]
        for f, ty, ini in decls:
            cond = f'if {f}.is_none(){{' if ini == 'None' else f'if let Some(None)={f}{{'
            body = cond + f'let(new_tail,parsed_{f})=Self::parse_{f}(tail)?;tail=new_tail;{f}=Some(parsed_{f});}}'
            if not s.startswith(body): die(t.name, ln, 'field body', f, s[:300])
            s = s[len(body):]
        m = fm(r'Ok\(\(tail,Self\{(.*)\}\)\)', s)
        if not m: die(t.name, ln, s)
        rest = m.group(1)
        for k, (f, ty, ini) in enumerate(decls):
            if k:
                if not rest.startswith(','): die(ln, rest[:100])
                rest = rest[1:]
            a = f'{f}:ok_or_return_missing_field_err!({f})'; d = f'{f}:{f}.unwrap_or(b""[..].to_vec())'
            if rest.startswith(a): rest = rest[len(a):]
            elif rest.startswith(d): rest = rest[len(d):]
            elif rest.startswith(f'{f}:{f}.expect("Missing {f} from struct")'):
                # never fails: the accumulator was set just above
                rest = rest[len(f'{f}:{f}.expect("Missing {f} from struct")'):]
            elif re.match(rf'{f}:{f}\.unwrap_or\(\w+\{{value:b""\[\.\.\]\.to_vec\(\)\}}\)', rest):
                rest = rest[re.match(rf'{f}:{f}\.unwrap_or\(\w+\{{value:b""\[\.\.\]\.to_vec\(\)\}}\)', rest).end():]
            else: die(ln, 'self', rest[:100])
        if rest: die(ln, rest)
        declf = [re.fullmatch(r'pub (\w+): (.*),', d).group(1) for d in t.decl]
        if declf != [f for f, _, _ in decls]: die(ln, 'field order differs from declaration')
        out = '.struct <|\n'
        for f, ty, ini in decls:
            out += f'    .cons "{f}" ({bp_field(t, f, env)}) <|\n'
        return out + '    .nil', None
    die(t.name, ln, b)

def emit(types, parse, path, ns, imports, lty, resolve, header, namesFor):
    done = {}; order = []; names = {}
    def env(n):
        if n in types:
            go(n); return n
        return resolve(n)
    busy = set()
    def go(n):
        if n in done: return
        if n in busy: die('recursive', n)
        busy.add(n)
        t = types[n]
        if 'parse' not in t.fns: die(n, 'no parse')
        extra = [f for f in t.fns if f != 'parse' and not f.startswith('parse_')]
        if extra: die(n, 'extra fns', extra)
        done[n], names[n] = parse(t, env)
        order.append(n)
    for n in types: go(n)
    out = ''.join(f'import {i}\n' for i in imports)
    out += f'/-! Generated by tools/extract.py from {header}.  Do not edit. -/\nnamespace {ns}\nopen S2\n\n'
    for n in order:
        t = types[n]
        out += f'/-- `{n}` ({path}:{t.lo}-{t.hi}) -/\ndef {n} : {lty} :=\n  {done[n]}\n\n'
    for n in namesFor:
        out += f'/-- Variant names of `{n}` by wire tag ({path}:{types[n].lo}-{types[n].hi}) -/\ndef {n}.variants : List (Int × String) :=\n  [' + ',\n   '.join(f'({a}, "{b}")' for a, b in names[n]) + ']\n\n'
    out += f'/-- All {len(order)} types of this module. -/\ndef all : List (String × {lty}) :=\n  [' + ',\n   '.join(f'("{n}", {n})' for n in order) + ']\n'
    out += f'\nend {ns}\n'
    return out, order

def main():
    os.makedirs(OUT, exist_ok=True)
    p8 = f'{REPO}/protocol87702/mod.rs'; p7 = f'{REPO}/protocol75689/mod.rs'
    L8 = open(p8).read().split('\n')
    split = L8.index('pub mod bit_packed {') + 1
    ba = load(p8, 3, split - 1)
    bp = load(p8, split, len(L8) - 1)
    def no(n): die('unresolved type', n)
    o, ordA = emit(ba, ba_parse, p8, 'S2.P87702.ByteAligned', ['Verif.Schema.ByteAligned'], 'VTy', no, f'{p8}:3-{split-1} (module byte_aligned)', ['ReplayTrackerEEventId'])
    open(f'{OUT}/P87702ByteAligned.lean', 'w').write(o)
    o, ordB = emit(bp, bp_parse, p8, 'S2.P87702.BitPacked', ['Verif.Schema.BitPacked'], 'BTy', no, f'{p8}:{split}-{len(L8)-1} (module bit_packed)', ['GameEEventId', 'GameEMessageId', 'GameEMessageRecipient', 'ELeaveReason', 'GameEControlGroupUpdate', 'GameECommandManagerState', 'GameSSelectionMask', 'GameSCmdData'])
    open(f'{OUT}/P87702BitPacked.lean', 'w').write(o)
    L7 = open(p7).read().split('\n')
    s7 = L7.index('pub mod bit_packed {') + 1
    if any(re.match(r'    pub (struct|enum) ', l) for l in L7[:s7]): die('75689 byte_aligned has own types')
    reexp = set(re.findall(r'pub use crate::versions::protocol87702::bit_packed::(\w+);', '\n'.join(L7)))
    own = load(p7, s7, len(L7) - 1)
    if set(own) & reexp: die('both own and re-exported')
    def r7(n):
        if n not in reexp: die('75689 unresolved', n)
        return 'S2.P87702.BitPacked.' + n
    o, ordC = emit(own, bp_parse, p7, 'S2.P75689.BitPacked', ['Verif.Gen.P87702BitPacked'], 'BTy', r7, f'{p7}:{s7}-{len(L7)-1} (module bit_packed)', ['GameEEventId'])
    open(f'{OUT}/P75689BitPacked.lean', 'w').write(o)
    print(len(ordA), len(ordB), len(ordC), 'types')

main()
