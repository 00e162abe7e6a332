"""Compare, class by class, the sequence of primitive reads and writes made by the Python methods
`read`/`write` (base classes and helpers expanded) with that of the Lean definitions of the same
name, both taken as text.  Usage: compare_calls.py [CLASS ...]; prints a diff per method.
Expected differences: a closing 0x03 written only when the class is the outermost one (readBody and
writeBody in the model), a literal kept as a match pattern or a helper argument."""
import ast,re,sys,difflib
PY={}
BASES={}
for n in ['attributes','bin','components','trackgroups','misc','essence']:
    src=open(f'/repo/src/avb/{n}.py').read()
    t=ast.parse(src)
    for c in t.body:
        if isinstance(c,ast.ClassDef):
            BASES[c.name]=[b.id if isinstance(b,ast.Name) else b.attr for b in c.bases]
            for m in c.body:
                if isinstance(m,ast.FunctionDef): PY[(c.name,m.name)]=m
        elif isinstance(c,ast.FunctionDef): PY[('',c.name)]=c
def lit(a):
    if isinstance(a,ast.Constant): return a.value
    if isinstance(a,ast.UnaryOp) and isinstance(a.op,ast.USub) and isinstance(a.operand,ast.Constant): return -a.operand.value
    return None
MAP={'exp10_encoded_float':'rate','object_ref':'ref','string':'str','datetime':'date','rgb_color':'rgb','raw_uuid':'rawuuid','mob_id':'mobid'}
def find(cls,m):
    while cls in BASES:
        if (cls,m) in PY: return cls
        cls=BASES[cls][0]
    return None
def pytoks(cls,meth,fn=None):
    out=[]
    fn=fn or PY[(cls,meth)]
    def visit(n):
        if isinstance(n,ast.Assign):
            visit(n.value); return
        if isinstance(n,ast.Call):
            f=n.func
            if isinstance(f,ast.Attribute):
                a=f.attr
                v=f.value
                if isinstance(v,ast.Name) and v.id in('ctx',) or (isinstance(v,ast.Attribute) and v.attr in('ictx','octx')):
                    for x in n.args: visit(x)
                    if a=='read_assert_tag': out.append(('tag',lit(n.args[1]))); return
                    if a=='iter_ext': out.append(('ext',)); return
                    if a in('read_string','write_string'):
                        enc='macroman'
                        ex=n.args[2:] if a=='write_string' else n.args[1:]
                        if ex: enc=lit(ex[0])
                        for k in n.keywords: enc=lit(k.value)
                        out.append(('str',enc.replace('-',''))); return
                    m=re.match(r'(read|write)_(.*)',a)
                    if m:
                        k=MAP.get(m.group(2),m.group(2))
                        l=lit(n.args[1]) if m.group(1)=='write' and len(n.args)>1 else None
                        out.append((k,l) if l is not None else (k,))
                    return
                if isinstance(v,ast.Name) and v.id in ('f','s') and a in('read','write'):
                    for x in n.args: visit(x)
                    out.append(('raw',)); return
                if isinstance(v,ast.Call) and isinstance(v.func,ast.Name) and v.func.id=='super':
                    
                    b=find(BASES[cls][0],a)
                    if b: out.extend(pytoks(b,a))
                    return
                if isinstance(v,ast.Name) and v.id=='self' and ((cls,a) in PY) and a.startswith(('read','write')):
                    out.extend(pytoks(cls,a)); return
            elif isinstance(f,ast.Name) and ('',f.id) in PY and f.id.startswith(('read','write')):
                out.extend(pytoks('',f.id)); return
        if isinstance(n,ast.Compare) and isinstance(n.left,ast.Name) and n.left.id=='tag':
            out.append(('case',lit(n.comparators[0])))
        for c in ast.iter_child_nodes(n): visit(c)
    for s in fn.body: visit(s)
    return out
LE={}
for n in ['Attributes','Bin','Components','TrackGroups','Misc','Essence','IOCtx','Prim']:
    t=open(f'/verif/lean/Verif/Model/{n}.lean').read()
    parts=re.split(r'\n(?=(?:/--|/-!|(?:def|structure|inductive|theorem|end|namespace|instance|abbrev)\b))',t)
    for p in parts:
        m=re.match(r'def (\S+)',p)
        if m: LE[m.group(1)]=p
TOK=re.compile(r'''(?P<tag>rTag (?P<tl>0x[0-9a-fA-F]+|\d+))|(?P<u8>\bwU8 (?P<ul>0x[0-9a-fA-F]+|\d+)?)|\br(?P<ru8>U8)\b|\b[wr](?P<s8>S8)\b(?: (?P<s8l>\(-?\d+\)|\d+))?|\b[wr]Int [cd]\.bo \.(?P<int>\w+)(?: (?P<il>\(-\d+\)|0x[0-9a-fA-F]+|\d+)(?![\w.]))?|\b[wr]Int \.(?P<fx>little|big) \.(?P<fxt>\w+)|\b[wr]Str [cd]\.bo \.(?P<str>\w+)|\b[wr](?P<bool>Bool)\b|\b[wr](?P<dbl>Double|Dbl)\b|\b[wr](?P<rate>Rate)\b|\b[wr](?P<mob>MobId)\b|\b[wr](?P<uuid>RawUuid)\b|\b[wr](?P<rgb>Rgb)\b|\b[wr](?P<rect>Rect)\b|\b[wr](?P<date>Date)\b|\b[wr](?P<fcc>Fourcc)\b|\b[wr](?P<ref>Ref)\b|(?P<raw>\bfread\b|Wr\.emit)|(?P<ext>\brExt\b)|\| (?P<case>0x[0-9a-fA-F]+) =>|tag = (?P<case2>0x[0-9a-fA-F]+)|(?P<help>\b(?:wName|wPoint|rPoint|wBox|rBox|wFlagged|wSortColumn|rSortColumn|wPresetPath|rPresetPath|wLock|rLock|wPVal|rPVal)\b)|\.to[A-Z]\w*\.(?P<supw>write\w*)|let base ← [A-Za-z]+\.(?P<supr>read\w*)|(?P<self>\b(?:x|s|p|e|cp|pp)\.(?:write\w+|wS32|wDbl|wRef)\b)''')
def num(s): return int(s.strip('()'),0)

EXTRA=r"""|(?P<ext2>\biterExt\b)|(?P<ident>\b[A-Za-z_][\w']*(?:\.[A-Za-z_]\w*)*)"""
PAT=TOK.pattern
k=PAT.index("|(?P<help>")
TOK2=re.compile(PAT[:k]+EXTRA)
CLS=set(x.rsplit('.',1)[0] for x in LE if '.' in x)
HELP={'wName','wPoint','rPoint','wBox','rBox','wSortColumn','rSortColumn','wPresetPath','rPresetPath','wLock','rLock'}
def resolve(i,cls):
    if i in HELP: return i
    if i in LE and '.' in i and i.split('.')[0] not in('Rd','Wr'): return i
    if '.' in i:
        p=i.split('.')
        for q in reversed(p[1:-1]):
            if q.startswith('to') and q[2:] in CLS and q[2:]+'.'+p[-1] in LE: return q[2:]+'.'+p[-1]
        if p[0] in('x','s','p','e','cp','pp','b','v','t') and len(p)==2 and re.match('(read|write|wS32|wDbl|wRef)',p[-1]):
            for c in (('SiftItem',) if cls=='Bin' and p[0]=='s' else (cls,'PVal')):
                if c+'.'+p[-1] in LE: return c+'.'+p[-1]
            return None
    return None
def letoks(name,cls,depth=0):
    body=LE[name]
    k=body.find(':= do'); 
    if k<0: k=body.find(':=')
    body=body[k:]
    body=re.sub(r'--.*','',body)
    out=[]
    for m in TOK2.finditer(body):
        g=m.groupdict()
        if g.get('ident'):
            t=resolve(g['ident'],cls)
            if t and t!=name: out.extend(letoks(t,t.rsplit('.',1)[0] if '.' in t else cls,depth+1))
            continue
        if g['tag']: out.append(('tag',num(g['tl'])))
        elif g['u8']: out.append(('u8',num(g['ul'])) if g['ul'] else ('u8',))
        elif g['ru8']: out.append(('u8',))
        elif g['s8']: out.append(('s8',num(g['s8l'])) if g['s8l'] else ('s8',))
        elif g['int']: out.append((g['int'],num(g['il'])) if g['il'] else (g['int'],))
        elif g['fx']: out.append((g['fxt']+('le' if g['fx']=='little' else 'be'),))
        elif g['str']: out.append(('str',g['str']))
        elif g['bool']: out.append(('bool',))
        elif g['dbl']: out.append(('double',))
        elif g['rate']: out.append(('rate',))
        elif g['mob']: out.append(('mobid',))
        elif g['uuid']: out.append(('rawuuid',))
        elif g['rgb']: out.append(('rgb',))
        elif g['rect']: out.append(('rect',))
        elif g['date']: out.append(('date',))
        elif g['fcc']: out.append(('fourcc',))
        elif g['ref']: out.append(('ref',))
        elif g['raw']: out.append(('raw',))
        elif g['ext'] or g['ext2']: out.append(('ext',))
        elif g['case']: out.append(('case',num(g['case'])))
        elif g['case2']: out.append(('case',num(g['case2'])))
    return out
if __name__=='__main__':
    only=sys.argv[1:]
    ok=0
    for (cls,m) in PY:
        if m not in('read','write') or not cls: continue
        nm=f'{cls}.{m}'
        if only and cls not in only: continue
        if nm not in LE: print('no lean',nm); continue
        a=pytoks(cls,m); b=letoks(nm,cls)
        # the lean reader of ext: cases may come before the rExt token
        if a==b: ok+=1; continue
        print('==',nm)
        A=[' '.join(map(str,x)) for x in a]; B=[' '.join(map(str,x)) for x in b]
        for l in difflib.unified_diff(A,B,'py','lean',lineterm='',n=1): 
            if not l.startswith(('---','+++')): print('  ',l)
    print('equal',ok)
