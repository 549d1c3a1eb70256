import ast,sys,copy,glob,json
CLS=sys.argv[1]; files=sys.argv[2:]
cases=[]; skipped=[]; RAISES=False
class Obj:
    def __init__(s,kw,name): s.kw=kw; s.name=name
class Rend:
    def __init__(s,o,files): s.o=o; s.files=files
class Conf:
    def __init__(s,o): s.o=o
class Skip(Exception): pass
def ev(n,env,cls):
    if isinstance(n,ast.Constant): return n.value
    if isinstance(n,ast.Dict): 
        d={}
        for k,v in zip(n.keys,n.values):
            if k is None: d.update(ev(v,env,cls))
            else: d[ev(k,env,cls)]=ev(v,env,cls)
        return d
    if isinstance(n,ast.List): return [ev(x,env,cls) for x in n.elts]
    if isinstance(n,ast.Tuple): return tuple(ev(x,env,cls) for x in n.elts)
    if isinstance(n,ast.UnaryOp) and isinstance(n.op,ast.USub): return -ev(n.operand,env,cls)
    if isinstance(n,ast.Name):
        if n.id in env: return env[n.id]
        if n.id in cls: return cls[n.id]
        raise Skip('name '+n.id)
    if isinstance(n,ast.BinOp) and isinstance(n.op,ast.Add): return ev(n.left,env,cls)+ev(n.right,env,cls)
    if isinstance(n,ast.Attribute):
        if isinstance(n.value,ast.Name) and n.value.id=='self':
            if n.attr in cls: return cls[n.attr]
            raise Skip('self.'+n.attr)
        v=ev(n.value,env,cls)
        if isinstance(v,Obj) and n.attr=='config': return Conf(v)
        raise Skip('attr '+n.attr)
    if isinstance(n,ast.Subscript):
        v=ev(n.value,env,cls)
        if isinstance(v,Rend): raise Skip('sub')
        if isinstance(v,Conf):
            if 'templates' in v.o.kw or 'context' in v.o.kw or not isinstance(v.o.kw.get('config'),dict): raise Skip('sub')
            v=v.o.kw['config']
        return v[ev(n.slice,env,cls)]
    if isinstance(n,ast.Call):
        f=n.func
        if isinstance(f,ast.Name) and f.id==CLS:
            kw={}
            if n.args: kw['config']=ev(n.args[0],env,cls)
            if len(n.args)>1: raise Skip('args')
            for k in n.keywords: kw[k.arg]=ev(k.value,env,cls)
            return Obj(copy.deepcopy(kw),env.get('#'))
        if isinstance(f,ast.Name) and f.id in('deepcopy','OrderedDict','dict'):
            if n.args: 
                v=ev(n.args[0],env,cls)
                return copy.deepcopy(v if f.id=='deepcopy' else dict(v))
            return {}
        if isinstance(f,ast.Attribute):
            if f.attr=='_tabs': return ev(n.args[0],env,cls).replace('    ','\t')
            if f.attr=='deepcopy': return copy.deepcopy(ev(n.args[0],env,cls))
            v=ev(f.value,env,cls) if not (isinstance(f.value,ast.Name) and f.value.id=='self') else None
            if isinstance(v,Obj) and f.attr=='validate':
                cases.append(dict(kind='validate',name=env['#'],kw=copy.deepcopy(v.kw),expected='error' if RAISES else 'ok')); return None
            if isinstance(v,Obj) and f.attr=='render':
                if RAISES: cases.append(dict(kind='validate',name=env['#'],kw=copy.deepcopy(v.kw),expected='error'))
                fl=True
                for k in n.keywords: fl=ev(k.value,env,cls)
                return Rend(v,fl)
            if isinstance(v,str) and f.attr in('replace','format','strip'):
                return getattr(v,f.attr)(*[ev(a,env,cls) for a in n.args],**{k.arg:ev(k.value,env,cls) for k in n.keywords})
            if isinstance(v,dict) and f.attr=='copy': return dict(v)
            if isinstance(v,(dict,list)) and f.attr in('update','append','pop','get','insert'):
                return getattr(v,f.attr)(*[ev(a,env,cls) for a in n.args])
        raise Skip('call '+ast.dump(f)[:60])
    raise Skip(type(n).__name__)
def assign(t,v,env,cls):
    if isinstance(t,ast.Name): env[t.id]=v
    elif isinstance(t,ast.Subscript):
        c=ev(t.value,env,cls)
        if isinstance(c,Rend): raise Skip('assign')
        if isinstance(c,Conf):
            if 'templates' in c.o.kw or not isinstance(c.o.kw.get('config'),dict): raise Skip('assign')
            c=c.o.kw['config']
        c[ev(t.slice,env,cls)]=v
    else: raise Skip('assign')
def record(a,b,env):
    if isinstance(b,(Rend,Conf)): a,b=b,a
    if isinstance(a,Rend) and isinstance(b,str): cases.append(dict(kind='render',name=env['#'],kw=copy.deepcopy(a.o.kw),files=a.files,expected=b)); return
    if isinstance(a,Conf) and isinstance(b,dict): cases.append(dict(kind='config',name=env['#'],kw=copy.deepcopy(a.o.kw),expected=copy.deepcopy(b))); return
    if isinstance(a,Rend) and isinstance(b,Rend):
        cases.append(dict(kind='same',name=env['#'],kw=copy.deepcopy(a.o.kw),kw2=copy.deepcopy(b.o.kw))); return
    raise Skip('record')
def run(body,env,cls):
    for s in body:
        try:
            if isinstance(s,ast.Assign):
                v=ev(s.value,env,cls)
                for t in s.targets: assign(t,v,env,cls)
            elif isinstance(s,ast.With):
                global RAISES
                c=s.items[0].context_expr
                RAISES=isinstance(c,ast.Call) and isinstance(c.func,ast.Attribute) and c.func.attr in('assertRaises','assertRaisesRegex') and c.args[0].id=='ValidationError'
                run(s.body,env,cls); RAISES=False
            elif isinstance(s,ast.Delete):
                for t in s.targets: del ev(t.value,env,cls)[ev(t.slice,env,cls)]
            elif isinstance(s,ast.FunctionDef): pass
            elif isinstance(s,ast.For):
                for x in ev(s.iter,env,cls):
                    assign(s.target,x,env,cls); run(s.body,env,cls)
            elif isinstance(s,ast.Expr) and isinstance(s.value,ast.Call) and isinstance(s.value.func,ast.Attribute) and s.value.func.attr in('assertEqual','assertDictEqual'):
                record(ev(s.value.args[0],env,cls),ev(s.value.args[1],env,cls),env)
            elif isinstance(s,ast.Expr) and isinstance(s.value,ast.Call): ev(s.value,env,cls)
            elif isinstance(s,ast.Expr): pass
            else: raise Skip(type(s).__name__)
        except Skip as e: skipped.append((env['#'],s.lineno,str(e)))
        except Exception as e: skipped.append((env['#'],s.lineno,repr(e)))
allcls={}
for f in files:
    t=ast.parse(open(f).read()); mod={}
    for s in t.body:
        if isinstance(s,ast.Assign):
            try: assign(s.targets[0],ev(s.value,mod,{}),mod,{})
            except Skip: pass
        if isinstance(s,ast.ClassDef):
            cls=dict(mod)
            for b in s.bases:
                if isinstance(b,ast.Name) and b.id in allcls: cls.update(allcls[b.id])
            allcls[s.name]=cls
            meths=[]
            for m in s.body:
                if isinstance(m,ast.FunctionDef): meths.append(m)
                else:
                    cls['#']=f; run([m],cls,cls)
            for m in meths:
                if m.name.startswith('test'):
                    run(m.body,{'#':f.split('/')[-1]+':'+m.name},cls)
def enc(v,out):
    if v is None: out.append('n')
    elif v is True: out.append('t')
    elif v is False: out.append('f')
    elif isinstance(v,int): out.append('i %d'%v)
    elif isinstance(v,str): out.append('s '+v.replace('\\','\\\\').replace('\n','\\n').replace('\r','\\r'))
    elif isinstance(v,(list,tuple)):
        out.append('l %d'%len(v))
        for x in v: enc(x,out)
    elif isinstance(v,dict):
        out.append('d %d'%len(v))
        for k,x in v.items(): enc(k,out); enc(x,out)
    else: raise Exception(v)
out=[]; n=0
if CLS!='OpenWrt': cases=[c for c in cases if c['kind']!='validate']
for c in cases:
    try:
        o=[]; enc(c,o); out+=o; n+=1
    except Exception as e: skipped.append((c['name'],0,repr(e)))
open('cases.txt','w').write('\n'.join(out)+'\n')
print(n,'cases',len(skipped),'skipped')
for s in skipped: print(s)
