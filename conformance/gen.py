#!/usr/bin/env python3
"""Translate unit tests of the project (/repo/Tests/UnitTests/*.cpp) into tests of the Lean model (lean/Verif/Conf*.lean).
Tests that use something outside the vocabulary below (text output, files, lambdas of other shapes) are skipped and counted."""
import re,sys,collections
SRC='/repo/Tests/UnitTests/'
FILES=[('VaultUnitTests.cpp','vault'),('VaultRecordSetUnitTests.cpp','set'),('VaultRecordRefUnitTests.cpp','ref')]
OUT='/verif/lean/Verif/'
# tests whose result depends on the iteration order of std::unordered_set (libstdc++: last inserted first)
REV={('AddUniqueKey','CorrectAddKeyToNonEmptyVault')}
class Skip(Exception): pass
unknown=collections.Counter()
def skip(why):
    unknown[re.sub(r'"[^"]*"','S',re.sub(r'-?\d+','N',why))[:110]]+=1
    raise Skip(why)
TY={'int':0,'std::string':1,'std::size_t':2,'size_t':2,'bool':3,'int64_t':4,'std::int64_t':4,'float':5,'double':6,'char':7}
def split(s,sep=','):
    out=[];d=0;cur='';q=False;i=0
    while i<len(s):
        c=s[i]
        if q:
            cur+=c
            if c=='\\': cur+=s[i+1]; i+=1
            elif c=='"': q=False
        elif c=='"': q=True; cur+=c
        elif c in '([{': d+=1; cur+=c
        elif c in ')]}': d-=1; cur+=c
        elif c==sep and d==0: out.append(cur); cur=''
        else: cur+=c
        i+=1
    out.append(cur)
    return [x.strip() for x in out]
def tests(txt):
    for m in re.finditer(r'^TEST_BODY\((\w+), (\w+),\n(.*?)^\)',txt,re.M|re.S): yield m.group(1),m.group(2),m.group(3)
def strip_comments(b): return re.sub(r'//[^\n]*','',b)
def stmts(b):
    """top-level statements; 'for' and '{' blocks are returned as tuples"""
    i=0;out=[];b=b.strip()
    while True:
        while i<len(b) and b[i] in ' \n\t;': i+=1
        if i>=len(b): break
        if b.startswith('for ',i) or b.startswith('for(',i):
            j=b.index('(',i); k=match(b,j); head=b[j+1:k]; i=k+1
            while b[i] in ' \n\t': i+=1
            if b[i]=='{':
                e=match(b,i); body=b[i+1:e]; i=e+1
            else:
                e=end(b,i); body=b[i:e]; i=e+1
            out.append(('for',head,body))
        elif b[i]=='{':
            e=match(b,i); out.append(('block',b[i+1:e])); i=e+1
        else:
            e=end(b,i); s=b[i:e].strip(); i=e+1
            if s: out.append(s)
    return out
def match(b,i):
    d=0;q=False
    while i<len(b):
        c=b[i]
        if q:
            if c=='\\': i+=1
            elif c=='"': q=False
        elif c=='"': q=True
        elif c in '([{': d+=1
        elif c in ')]}':
            d-=1
            if d==0: return i
        i+=1
    raise Skip('unbalanced')
def end(b,i):
    m=re.compile(r'[A-Z_]{4,}(?=\()').match(b,i)
    if m: return match(b,m.end())+1
    d=0;q=False
    while i<len(b):
        c=b[i]
        if q:
            if c=='\\': i+=1
            elif c=='"': q=False
        elif c=='"': q=True
        elif c in '([{': d+=1
        elif c in ')]}': d-=1
        elif c==';' and d==0: return i
        i+=1
    # macros without ';'
    return len(b)
class T:
    counter=None
    def __init__(self,body):
        self.strings=sorted(set([bytes(x,'utf8') for x in re.findall(r'"((?:[^"\\]|\\.)*)"',body)])|{b''})
        self.strings=sorted(set(self.strings)|{x+bytes(str(d),'utf8') for x in self.strings if len(x)<2 for d in range(12)})
        self.keys={};self.vars={};self.no=0;self.nr=0;self.out=[];self.ivars={};self.scopes=[[]]
        self.pending=None; self.vals={}; self.strs={}
    def key(self,k):
        if k=='' : raise Skip('empty key')
        return self.keys.setdefault(k,len(self.keys)+1)
    def val(self,e,t=None):
        """(lean number, type tag)"""
        e=e.strip()
        m=re.fullmatch(r'(std::string|std::size_t|size_t|int64_t|std::int64_t|int|float|bool)\((.*)\)',e,re.S)
        if m: return self.val(m.group(2),TY[m.group(1)])
        m=re.fullmatch(r'"((?:[^"\\]|\\.)*)"',e)
        if m:
            if t not in (None,1): skip('string literal of type %s'%t)
            if t is None: skip('char array')
            c=self.strings.index(bytes(m.group(1),'utf8')); v=8*c+1
            self.vals.setdefault(v,m.group(1)); return v,1
        if e in('true','false'):
            if t not in (None,3): skip('bool cast')
            v=8*(1 if e=='true' else 0)+3; self.vals[v]=e=='true'; return v,3
        if re.fullmatch(r'[-+*%() \d\w]+',e):
            x=e
            for n,iv in self.ivars.items(): x=re.sub(r'\b%s\b'%n,str(iv),x)
            if re.fullmatch(r'[-+*%() \d]+',x):
                n=eval(x.replace('%','%'))
                tt=t if t is not None else self.ity[e] if e in self.ity and e in self.ivars else 0
                if tt==1 or tt==3: skip('number as string')
                v=8*(n+1000)+tt
                self.vals[v]=n
                return v,tt
        m=re.fullmatch(r'(\d+)\.(\d+)f?',e)
        if m:
            tt=t if t is not None else 5 if e.endswith('f') else 6
            return 8*(1000+int(m.group(1)))+tt,tt
        m=re.fullmatch(r'std::to_string\((\w+)\)',e)
        if m and m.group(1) in self.ivars: return self.val('"%s"'%self.ivars[m.group(1)],1)
        if e in self.loc and self.loc[e]==1 and self.init.get(e,'')=='': return self.val('""',1)
        skip('value '+e)
    def params(self,e):
        e=e.strip()
        if not(e.startswith('{') and e.endswith('}')): skip('params '+e)
        inner=e[1:-1].strip()
        if inner.endswith(','): inner=inner[:-1]
        if inner=='' : return []
        out=[]
        for p in split(inner):
            p=p.strip()
            if p=='{}': out.append(None); continue
            if not(p.startswith('{') and p.endswith('}')): skip('param '+p)
            kv=split(p[1:-1])
            if len(kv)!=2: skip('param '+p)
            out.append((self.key(eval(kv[0])),self.val(kv[1])[0]))
        return out
    def lp(self,ps):
        if None in ps: skip('empty param pair')
        return '['+', '.join('(%d, %d)'%p for p in ps)+']'
    def rows(self,e):
        e=e.strip()
        inner=e[1:-1].strip()
        if inner.endswith(','): inner=inner[:-1]
        if inner=='' : return '[]'
        return '['+', '.join(self.lp(self.params(r)) for r in split(inner))+']'
    def new(self,kind,name):
        if name in self.vars: skip('redeclared')
        if kind=='ref': self.vars[name]=('ref',self.nr); self.nr+=1
        else: self.vars[name]=(kind,self.no); self.no+=1
        self.scopes[-1].append(name)
    def v(self,name,kind=None):
        if name not in self.vars: skip('unknown variable '+name)
        k,i=self.vars[name]
        if kind and k!=kind: skip('kind of '+name)
        return i
    def emit(self,op,world=False):
        self.flush()
        self.pending=(op,world)
    def drain(self):
        self.out+=self.queue; self.queue=[]
    def flush(self,exp=None):
        if self.pending is None: self.drain(); return
        self.flush1(exp); self.drain()
    def flush1(self,exp):
        op,world=self.pending; self.pending=None
        if callable(op): self.out.append(op(exp)); return
        if exp is None: self.out.append(('opW (fun w => %s)' if world else 'op (%s)')%op)
        elif exp[0]=='flag': self.out.append('flag (%s) %s'%(op,exp[1]))
        else: self.out.append(('resW (fun w => %s) %s' if world else 'res (%s) %s')%(op,exp[1]))
    def raw(self,s):
        self.flush(); self.out.append(s)
    def pred(self,e):
        m=re.match(r'\[&?\]\(const VaultRecordRef& ref\) *-> *bool\s*\{(.*)\}$',e.strip(),re.S)
        if not m: skip('lambda '+e[:40])
        b=' '.join(m.group(1).split())
        m=re.fullmatch(r'(int|std::size_t|std::string|bool) (\w+)(?: = (?:0|false))?; ref\.GetData\("(\w+)", \2\); if \((.*)\) return true; else return false;',b)
        if not m: skip('lambda body '+b)
        t=TY[m.group(1)]; x=m.group(2); k=self.key(m.group(3)); cond=m.group(4)
        return ('PRED',k,t,x,cond)
    def lpred(self,p):
        if p is None: return '(fun _ => true)'
        self.preds.append(p); return '(fun r => ⟦%d⟧)'%(len(self.preds)-1)
    preds=None
    def req(self,e):
        e=e.strip()
        # || and && at top level
        d=0;q=False
        for op,c in (('||','or'),('&&','and')):
            d=0;q=False;pos=[]
            for i,ch in enumerate(e):
                if q:
                    if ch=='"': q=False
                elif ch=='"': q=True
                elif ch in '([{': d+=1
                elif ch in ')]}': d-=1
                elif d==0 and e.startswith(op,i): pos.append(i)
            if pos:
                i=pos[-1]
                return '(.%s %s %s)'%(c,self.req(e[:i]),self.req(e[i+2:]))
        if e.startswith('(') and match(e,0)==len(e)-1: return self.req(e[1:-1])
        m=re.match(r'(Equal|GreaterOrEqual|Greater|LessOrEqual|Less)(<[^>]*>)?\(',e)
        if m and match(e,m.end()-1)==len(e)-1:
            a=split(e[m.end():-1])
            t=TY.get(m.group(2)[1:-1]) if m.group(2) else None
            k=self.key(eval(a[0])); v,_=self.val(a[1],t)
            p=self.pred(a[2]) if len(a)>2 else None
            return '(.leaf .%s %d %d %s)'%(m.group(1),k,v,self.lpred(p))
        m=re.match(r'(And|Or)\(',e)
        if m and match(e,m.end()-1)==len(e)-1:
            a=split(e[m.end():-1])
            if len(a)==2: return '(.%s %s %s)'%(m.group(1).lower(),self.req(a[0]),self.req(a[1]))
        skip('request '+e[:60])
    def amount(self,e):
        e=e.strip()
        if e=='-1': return 'none'
        if re.fullmatch(r'\d+',e): return '(some %s)'%e
        skip('amount '+e)
    def call(self,obj,meth,targ,args):
        """returns True when it yields a result"""
        a=split(args) if args.strip() else []
        kind,i=self.vars.get(obj,(None,None))
        if kind is None: skip('object '+obj)
        t=None
        if targ:
            t=TY.get(targ)
            if t is None: skip('type '+targ)
        S='set' if kind=='set' else ''
        def k(n): return self.key(eval(a[n]))
        if kind=='vault' or kind=='set':
            if meth=='AddKey': self.emit('.addKey %d %d %d'%(i,k(0),self.val(a[1],t)[0])); return
            if meth=='AddUniqueKey':
                if len(a)==2:
                    b=' '.join(a[1].split())
                    m=re.fullmatch(r'\[\]\(const std::size_t& counter, const VaultRecordRef& ref\) -> (std::string|int) \{ (.*) \}',b)
                    if not m: skip('AddUniqueKey with function')
                    b=m.group(2)
                    m1=re.fullmatch(r'std::string str; ref\.GetData\("(\w)", str\); return str \+= std::to_string\(counter\);',b)
                    m2=re.fullmatch(r'int a = 0; ref\.GetData\("(\w)", a\); return std::to_string\(a\);',b)
                    S=lambda x:self.val('"%s"'%x,1)[0]
                    if m1:
                        tab=[(S(x),c,S(x+str(c))) for x in 'abc' for c in range(3)]
                        fn='(fun _ c r => look3 [%s] (cell w r %d) c)'%(', '.join('(%d, %d, %d)'%x for x in tab),self.key(m1.group(1)))
                    elif m2:
                        tab=[(8*(1000+x),S(x)) for x in range(5)]
                        fn='(fun _ _ r => look2 [%s] (cell w r %d))'%(', '.join('(%d, %d)'%x for x in tab),self.key(m2.group(1)))
                    elif b=='if (counter > 0) return 1; else return counter;': fn='(fun _ c _ => if c = 0 then 8000 else 8008)'
                    elif b=='if (counter > 0) return std::to_string(1); else return std::to_string(counter);': fn='(fun _ c _ => if c = 0 then %d else %d)'%(S('0'),S('1'))
                    else: skip('function '+b)
                    self.emit('.addUniqueKey %d %d %d false %s'%(i,k(0),t,fn),True); return
                self.emit('.addUniqueKey %d %d %d true (fun _ _ _ => 0)'%(i,k(0),t)); return
            if meth=='UpdateKey': self.emit('.updateKey %d %d %d'%(i,k(0),self.val(a[1],t)[0])); return
            if meth=='RemoveKey': self.emit('.removeKey %d %d'%(i,k(0))); return
            if meth=='CreateRecord':
                if len(a)==1: f=None; ps=self.params(a[0])
                else: f=self.v(a[0],'ref'); ps=self.params(a[1])
                # {{}}: VaultParamInput has no default constructor, so this is a copy of an empty vector
                if ps==[None]: ps=[]
                pl=self.lp(ps)
                self.emit('.createRow %d %s'%(i,pl) if f is None else '.createRecord %d %d %s'%(i,f,pl)); return
            if meth=='EraseRecord':
                if len(a)==1: self.emit('.eraseRef %d %d'%(i,self.v(a[0],'ref')))
                else: self.emit('.eraseKV %d %d %d'%(i,k(0),self.val(a[1],t)[0]))
                return
            if meth=='EraseRecords':
                n=a[2] if len(a)>2 else '1000000'
                self.emit('.eraseManyKV %d %d %d %s'%(i,k(0),self.val(a[1],t)[0],n)); return
            if meth=='DropData': self.emit('.dropData %d'%i); return
            if meth=='DropVault': self.emit('.dropVault %d'%i); return
            if meth=='GetRecord':
                f=self.v(a[2],'ref'); self.emit('.%s %d %d %d %d'%('setGetRecord' if S else 'getRecord',i,k(0),self.val(a[1],t)[0],f)); return
            m=re.fullmatch(r'Request(Equal|GreaterOrEqual|Greater|LessOrEqual|Less)',meth)
            if m:
                kk=k(0); v,_=self.val(a[1],t); s=self.v(a[2],'set')
                n=self.amount(a[3]) if len(a)>3 else 'none'
                p=self.pred(a[4]) if len(a)>4 else None
                self.emit('.request %d .%s %d %d %d false false %s %s %d'%(i,m.group(1),kk,v,v,n,self.lpred(p),s),p is not None); return
            if meth=='RequestInterval':
                kk=k(0); v,_=self.val(a[1],t); u,_=self.val(a[2],t); s=self.v(a[3],'set')
                ia=a[4] if len(a)>4 else 'true'; ib=a[5] if len(a)>5 else 'true'
                n=self.amount(a[6]) if len(a)>6 else 'none'
                p=self.pred(a[7]) if len(a)>7 else None
                self.emit('.request %d .Interval %d %d %d %s %s %s %s %d'%(i,kk,v,u,ia,ib,n,self.lpred(p),s),p is not None); return
            if meth=='Request':
                q=self.req(a[0]); self.emit('.requestTree %d %s %d'%(i,q,self.v(a[1],'set')),'⟦' in q); return
            if meth=='GetKeyValue':
                # the output variable is a[1]
                kk=k(0); x=a[1]
                if x not in self.loc: skip('output '+x)
                tt=self.loc[x]
                def g(exp,kk=kk,tt=tt):
                    if exp is None: skip('GetKeyValue without comparison')
                    ok,code,key,req,sav=exp[2]
                    return 'keyValue %d %d %d %s %s %s none'%(i,kk,tt,ok,code,sav)
                self.emit(g); self.outv[x]='(fun w => getKeyValue w %d %d %d)'%(i,kk,tt); return
            if meth=='GetKeyType':
                pass
        if kind=='set':
            if meth=='AddRecord': self.emit('.setAddRecord %d %d'%(i,self.v(a[0],'ref'))); return
            if meth=='RemoveRecord':
                if len(a)==1: self.emit('.setRemoveRef %d %d'%(i,self.v(a[0],'ref')))
                else: self.emit('.setRemoveKV %d %d %d'%(i,k(0),self.val(a[1],t)[0]))
                return
            if meth=='RemoveRecords':
                n=a[2] if len(a)>2 else '1000000'
                self.emit('.setRemoveManyKV %d %d %d %s'%(i,k(0),self.val(a[1],t)[0],n)); return
            if meth=='Clear': self.emit('.setClear %d'%i); return
            if meth=='Reset': self.emit('.setReset %d'%i); return
            if meth in('Join','Exclude','Intersect'): self.emit('.set%s %d %d'%(meth,i,self.v(a[0],'set'))); return
        if kind=='ref':
            if meth=='Reset': self.emit('.refReset %d'%i); return
            if meth=='SetData':
                if len(a)==1: self.emit('.refSetDataMany %d %s'%(i,self.lp(self.params(a[0]))))
                else: self.emit('.refSetData %d %d %d'%(i,k(0),self.val(a[1],t)[0]))
                return
            if meth=='GetData':
                kk=k(0); x=a[1]
                if x not in self.loc: skip('output '+x)
                tt=self.loc[x]
                def g(exp,kk=kk,tt=tt):
                    if exp is None: return 'chk (fun w => (refGetData w %d %d %d).isSome)'%(i,kk,tt)
                    ok,code,key,req,sav=exp[2]
                    return 'getData %d %d %d %s %s %s none'%(i,kk,tt,ok,code,sav)
                self.emit(g); self.outv[x]='(fun w => refGetData w %d %d %d)'%(i,kk,tt); return
        skip('%s.%s/%d'%(kind,meth,len(a)))
    loc=None
    CALL=re.compile(r'([$\w]+)\.(\w+)(?:<([\w:]+)>)?\((.*)\)$',re.S)
    def stmt(self,s):
        if isinstance(s,tuple):
            if s[0]=='for':
                m0=re.match(r'\s*(int|std::size_t|size_t) ',s[1]); m=re.fullmatch(r'\s*(?:int|std::size_t|size_t) (\w+) = (\d+); \1 < (\d+); \+\+\1\s*',s[1])
                if not m: skip('for '+s[1])
                if int(m.group(3))>12 : skip('long loop')
                for j in range(int(m.group(2)),int(m.group(3))):
                    self.ivars[m.group(1)]=j; self.ity[m.group(1)]=TY[m0.group(1)]
                    for x in stmts(s[2]): self.stmt(x)
                del self.ivars[m.group(1)]
            else:
                self.scopes.append([])
                for x in stmts(s[1]): self.stmt(x)
                self.close()
            return
        s=s.strip()
        for p in self.ptrs: s=re.sub(r'\*%s\b'%p,p,re.sub(r'\b%s->'%p,p+'.',s))
        m=re.fullmatch(r'GENERATE_SET\((\w+)\)',s)
        if m:
            n=m.group(1)
            for x in ['VaultRecordSet %s'%n,'vlt.AddKey("A", 0)','vlt.CreateRecord({{}})','vlt.RequestEqual("A", 0, %s)'%n,'vlt.EraseRecord("A", 0)','vlt.RemoveKey("A")']: self.stmt(x)
            return
        m=re.fullmatch(r'(Vault|VaultRecordSet|VaultRecordRef)\* (\w+) = new \1(?:\((.*)\))?',s)
        if m:
            self.ptrs.add(m.group(2)); self.stmt('%s %s%s'%(m.group(1),m.group(2),'('+m.group(3)+')' if m.group(3) else '')); return
        m=re.fullmatch(r'delete (\w+)',s)
        if m:
            self.flush(); n=m.group(1); kk,i=self.vars.pop(n)
            for sc in self.scopes:
                if n in sc: sc.remove(n)
            self.out.append({'vault':'op (.destroyVault %d)','set':'op (.destroySet %d)','ref':'op (.refReset %d)'}[kk]%i); return
        m=re.fullmatch(r'(Vault|VaultRecordSet|VaultRecordRef) ([\w, ]+)',s)
        if m:
            kind={'Vault':'vault','VaultRecordSet':'set','VaultRecordRef':'ref'}[m.group(1)]
            for n in split(m.group(2)):
                self.raw('op .new%s'%{'vault':'Vault','set':'Set','ref':'Ref'}[kind]); self.new(kind,n)
            return
        m=re.fullmatch(r'(Vault|VaultRecordSet|VaultRecordRef) (\w+)\((?:std::move\()?(\w+)\)?\)',s) or re.fullmatch(r'(Vault|VaultRecordSet|VaultRecordRef) (\w+) = (?:std::move\()?(\w+)\)?',s)
        if m:
            kind={'Vault':'vault','VaultRecordSet':'set','VaultRecordRef':'ref'}[m.group(1)]
            mv='std::move' in s; j=self.v(m.group(3),kind)
            if kind=='ref':
                self.raw('op .newRef'); self.new('ref',m.group(2))
                self.raw('op (.%s %d %d)'%('refMove' if mv else 'refCopy',self.v(m.group(2)),j))
            else:
                self.raw('op (.%s%s %d)'%(kind,'MoveNew' if mv else 'CopyNew',j)); self.new(kind,m.group(2))
            return
        m=re.fullmatch(r'(\w+) = (?:std::move\()?(\w+)\)?',s)
        if m and m.group(1) in self.vars and m.group(2) in self.vars:
            kind=self.vars[m.group(1)][0]; mv='std::move' in s
            i,j=self.v(m.group(1)),self.v(m.group(2),kind)
            if kind=='ref': self.raw('op (.%s %d %d)'%('refMove' if mv else 'refCopy',i,j))
            else: self.raw('op (.%s%s %d %d)'%(kind,'MoveAssign' if mv else 'Assign',i,j))
            return
        if re.fullmatch(r'(VaultOperationResult) \w+',s): return
        if re.fullmatch(r'std::type_index type = typeid\(void\)',s): return
        m=re.fullmatch(r'if \((i == \d+(?: \|\| i == \d+)*)\) (.*)',s,re.S)
        if m:
            if eval(m.group(1).replace('||','or'),{'i':self.ivars['i']}): self.stmt(m.group(2))
            return
        m=re.fullmatch(r'(?:std::vector<VaultRecordRef> )?(\w+) = (\w+)\.GetSortedRecords\("(\w+)"(?:, (true|false))?(?:, (\d+))?\)',s)
        if m:
            self.flush()
            self.dropvec(m.group(1))
            self.raw('op (.getSorted %d %d %s %s)'%(self.v(m.group(2)),self.key(m.group(3)),m.group(4) or 'false','(some %s)'%m.group(5) if m.group(5) else 'none'))
            self.vecs[m.group(1)]=(self.nr,None); return
        m=re.fullmatch(r'(\w+)\.SortBy\("(\w+)", \[&\]\(const VaultRecordRef& ref\) -> bool\s*\{\s*int i = 0;\s*ref.GetData\("(\w+)", i\);\s*TEST_ASSERT\(counter == i\);\s*(\+\+|--)counter;\s*return true;\s*\}(?:, (true|false))?(?:, (\d+))?\)',s)
        if m:
            self.flush()
            self.counter=(self.v(m.group(1)),self.key(m.group(2)),m.group(5) or 'false','(some %s)'%m.group(6) if m.group(6) else 'none',self.key(m.group(3)),m.group(4),int(self.init['counter']))
            return
        m=re.fullmatch(r'(int|std::string|bool|std::size_t|float|int64_t|std::int64_t) ([\w, ]+?)( = ([^()]*))?',s)
        if m:
            for n in split(m.group(2)): self.loc[n]=TY[m.group(1)]; self.init[n]=m.group(4) or ''
            return
        if re.fullmatch(r'std::vector<std::vector<std::pair<std::string, TypeWrapper>>> records',s): return
        m=re.fullmatch(r'std::vector<VaultRecordRef> (\w+)',s)
        if m: self.vecs[m.group(1)]=None; return
        m=re.fullmatch(r'(\w+)\[(\w+)\]\.(.*)',s,re.S)
        if m and m.group(1) in self.vecs:
            self.vecref(m.group(1),m.group(2)); self.stmt('$v.'+m.group(3)); return
        m=re.fullmatch(r'(?:vor = |res = )?(Union|Intersection)\((\w+), (\w+), (\w+)\)',s)
        if m:
            self.emit('.set%s %d %d %d'%(m.group(1),self.v(m.group(2),'set'),self.v(m.group(3),'set'),self.v(m.group(4),'set'))); return
        m=re.fullmatch(r'COMPARE_OPERATION\((.*)\)',s,re.S)
        if m:
            f={}
            for p in split(m.group(1))[1:]:
                x,y=[z.strip() for z in p.split('==',1)]; f[x]=y
            key=eval(f['Key']); key='none' if key=='' else '(some %d)'%self.key(key)
            def ty(e):
                n=re.fullmatch(r'typeid\((.*)\)',e).group(1)
                if n=='void': return 'none'
                if n not in TY: skip('typeid '+n)
                return '(some %d)'%TY[n]
            code='.'+f['ResultCode'].split('::')[-1]
            tup=(f['IsOperationSuccess'],code,key,ty(f['RequestedType']),ty(f['SavedType']))
            if self.pending is None: skip('comparison without call: ')
            self.hold(('res',' '.join(tup),tup)); return
        m=re.fullmatch(r'(?:COMPARE_VAULT|CompareVault)\((\w+), (.*)\)',s,re.S)
        if m: self.later('rows %d %s'%(self.v(m.group(1)),self.rows(m.group(2)))); return
        m=re.fullmatch(r'COMPARE_REF\((\w+)(\[(\d)\])?, (.*)\)',s,re.S)
        if m:
            if m.group(2): self.vecref(m.group(1),m.group(3))
            r=m.group(4).strip()
            ps=self.params(r)if not r.startswith('{{{') else self.params(r[1:-1])
            self.later('refRow %d %s'%(self.v('$v' if m.group(2) else m.group(1),'ref'),self.lp(ps))); return
        m=re.fullmatch(r'COMPARE_CORRECT_REQUEST(_SET)?\((.*)\)',s,re.S)
        if m:
            a=split(m.group(2)); par='parentVrs' if m.group(1) else 'vlt'
            self.stmt('vor = %s.Request(%s, vrs)'%(par,a[0]))
            self.stmt('COMPARE_VAULT(vrs, %s)'%a[1])
            self.stmt('COMPARE_OPERATION(vor, IsOperationSuccess == true, Key == "", RequestedType == typeid(void), ResultCode == VaultOperationResultCode::Success, SavedType == typeid(void))')
            return
        m=re.fullmatch(r'TEST_ASSERT\((.*)\)',s,re.S)
        if m: self.assertion(m.group(1).strip()); return
        m=re.fullmatch(r'TEST_ASSERT\((.*)\)\s*',s,re.S)
        m=re.match(r'(?:vor|res) = ',s)
        if m: s=s[m.end():]
        elif re.search(r'\.(GetData|GetKeyValue)\(',s) and self.pending is not None:
            keep=self.pending; n=len(self.out); self.pending=None; q=self.queue; self.queue=[]
            m=self.CALL.fullmatch(s); self.call(*m.groups()); self.flush()
            q+=self.out[n:]; del self.out[n:]
            self.pending=keep; self.queue=q
            return
        m=self.CALL.fullmatch(s)
        if m and m.group(1) in self.vars:
            if m.group(2)=='GetRecords' and self.vars[m.group(1)][0] in('vault','set'):
                a=split(m.group(4)); kind,i=self.vars[m.group(1)]
                if a[2] not in self.vecs: skip('vector')
                self.flush(); self.dropvec(a[2])
                t=TY.get(m.group(3)) if m.group(3) else None
                n=a[3] if len(a)>3 else '1000000'
                self.emit('.%s %d %d %d %s'%('setGetRecords' if kind=='set' else 'getRecords',i,self.key(eval(a[0])),self.val(a[1],t)[0],n))
                self.vecs[a[2]]=(self.nr,None)
                return
            self.call(*m.groups()); return
        if s.startswith('COMPARE_OPERATION') : skip('cmp '+s[:50])
        skip('stmt '+s[:80])
    def dropvec(self,x):
        if self.vecs.get(x):
            st,n=self.vecs[x]
            if n is None: skip('vector of unknown size')
            for i in range(n): self.raw('op (.refReset %d)'%(st+i))
    def vecref(self,x,i):
        st,n=self.vecs[x]; i=self.ivars.get(i,i); i=int(i)
        if n is None or i>=n: skip('vector index')
        self.vars['$v']=('ref',st+i)
    def pyval(self,e):
        e=e.strip()
        for n,iv in self.ivars.items(): e=re.sub(r'\b%s\b'%n,str(iv),e)
        if not re.fullmatch(r'[-+ \d]+',e): skip('number '+e)
        return eval(e)
    def later(self,s):
        """an assertion that may come between a call and the comparison of its result"""
        if self.pending is not None: self.queue.append(s)
        else: self.out.append(s)
    def hold(self,exp):
        self.flush(exp)
    def assertion(self,e):
        num=lambda x:int(x)
        m=re.fullmatch(r'(\w+)\.Size\(\) == ([-+\w ]+)',e)
        if m: return self.later('size %d %d'%(self.v(m.group(1)),self.pyval(m.group(2))))
        m=re.fullmatch(r'(\w+)\.GetKeys\(\)\.size\(\) == (\d+)',e)
        if m and self.vars.get(m.group(1),('',0))[0]!='ref': return self.later('keysN %d %s'%(self.v(m.group(1)),m.group(2)))
        m=re.fullmatch(r'(\w+)\.GetUniqueKeys\(\)\.size\(\) == (\d+)',e)
        if m: return self.later('uniqN %d %s'%(self.v(m.group(1)),m.group(2)))
        m=re.fullmatch(r'(\w+)\.GetKeys\(\) == std::vector<std::string>\(\{(.*)\}\)',e)
        if m and self.vars.get(m.group(1),('',0))[0]!='ref': return self.later('keys %d [%s]'%(self.v(m.group(1)),', '.join(str(self.key(eval(x))) for x in split(m.group(2)) if x)))
        m=re.fullmatch(r'(\w+)\.GetIsParentVaultValid\(\) == (true|false)',e)
        if m: return self.later('parentValid %d %s'%(self.v(m.group(1),'set'),m.group(2)))
        m=re.fullmatch(r'(\w+)\.GetParentVaultUniqueId\(\) (==|!=) "null"',e)
        if m: return self.later('parentValid %d %s'%(self.v(m.group(1),'set'),'false' if m.group(2)=='==' else 'true'))
        m=re.fullmatch(r'(\w+)\.IsKeyExist\((".*")\) == (true|false)',e)
        if m and self.vars.get(m.group(1),('',0))[0]!='ref': return self.later('keyExists %d %d %s'%(self.v(m.group(1)),self.key(eval(m.group(2))),m.group(3)))
        m=re.fullmatch(r'(\w+)\.IsValid\(\) == (true|false)',e)
        if m: return self.later('valid %d %s'%(self.v(m.group(1),'ref'),m.group(2)))
        m=re.fullmatch(r'(\w+)\.GetRecordUniqueId\(\) (==|!=) "null"',e)
        if m: return self.later('idNull %d %s'%(self.v(m.group(1),'ref'),'true' if m.group(2)=='==' else 'false'))
        m=re.fullmatch(r'(\w+)\.CheckRecord\((\w+)\) == (true|false)',e)
        if m: return self.later('has %d %d %s'%(self.v(m.group(1),'set'),self.v(m.group(2),'ref'),m.group(3)))
        m=re.fullmatch(r'(\w+)\.size\(\) == (\d+)',e)
        if m and m.group(1) in self.vecs:
            if self.vecs[m.group(1)] is None:
                if m.group(2)!='0': skip('empty vector')
                return
            st,_=self.vecs[m.group(1)]; n=int(m.group(2))
            self.vecs[m.group(1)]=(st,n); self.nr=max(self.nr,st+n)
            return self.later('vecSize %d %d'%(st,n))
        m=re.fullmatch(r'counter == (-?\d+)',e)
        if m and self.counter:
            o,k,rev,n,j,d,c=self.counter; e=int(m.group(1))
            l=list(range(c,e)) if d=='++' else list(range(c,e,-1))
            return self.later('sorted %d %d %s %s %d [%s]'%(o,k,rev,n,j,', '.join(str(8*(x+1000)) for x in l)))
        m=re.fullmatch(r'(\w+) == (.*)',e)
        if m and m.group(1) in self.outv and m.group(1) in self.loc:
            x=m.group(1); t=self.loc[x]
            v=self.val('"%s"'%eval(m.group(2)) if t==1 else m.group(2) if t==3 else str(self.pyval(m.group(2))),t)[0]
            i0=self.val('""',1)[0] if t==1 else self.val(self.init[x] or ('false' if t==3 else '0'),t)[0]
            return self.later('readIs %s %d %d'%(self.outv[x],i0,v))
        m=re.fullmatch(r'(\w+)\.empty\(\)',e)
        if m and m.group(1) in self.outv: return self.assertion('%s == ""'%m.group(1))
        m=re.fullmatch(r'(\w+)\.GetKeyType\("(\w+)", type\)( == false)?',e)
        if m: self.lastty=(self.v(m.group(1)),self.key(m.group(2)),m.group(3)); return
        m=re.fullmatch(r'type == typeid\((.*)\)',e)
        if m and self.lastty:
            o,k,neg=self.lastty
            t='none' if neg else '(some %d)'%TY[m.group(1)]
            return self.later('keyType %d %d %s'%(o,k,t))
        m=re.fullmatch(r'(\w+)\.IsKeyExist\("(\w+)"\)',e)
        if m: return self.assertion(e+' == true')
        m=re.fullmatch(r'res',e)
        if m: return self.hold(('flag','true'))
        m=re.fullmatch(r'(\w+)\.Get(Unique)?Keys\(\) == std::vector<std::string>\(?(?:\(?\{?(.*?)\}?\)?)\)?',e)
        if m and self.vars.get(m.group(1),('',0))[0] in('vault','set'):
            return self.later('%s %d [%s]'%('uniq' if m.group(2) else 'keys',self.v(m.group(1)),', '.join(str(self.key(eval(x))) for x in split(m.group(3)) if x)))
        m=re.fullmatch(r'res == (true|false)',e)
        if m: return self.hold(('flag',m.group(1)))
        m=re.fullmatch(r'(!?)\(?(\w+) (==|!=) (\w+)\)?(?: == (true|false))?',e)
        if m and m.group(2) in self.vars and m.group(4) in self.vars:
            k1,i=self.vars[m.group(2)]; k2,j=self.vars[m.group(4)]
            val=(m.group(5)!='false') != (m.group(1)=='!')
            if k1=='ref': return self.later('%s %d %d %s'%('refsEq' if m.group(3)=='==' else 'refsNe',i,j,str(val).lower()))
            if k1=='set': return self.later('setsEq %d %d %s'%(i,j,str(val==(m.group(3)=='==')).lower()))
        m=self.CALL.fullmatch(e) or self.CALL.fullmatch(re.sub(r' == (true|false)$','',e))
        if m and m.group(1) in self.vars:
            v=re.search(r' == (true|false)$',e)
            n=len(self.out)
            self.call(*m.groups())
            if callable(self.pending[0]): skip('assert call')
            self.hold(('flag',v.group(1) if v else 'true')); return
        skip('assert '+e[:70])
    def close(self):
        self.flush()
        for n in reversed(self.scopes.pop()):
            k,i=self.vars.pop(n)
            self.out.append({'vault':'op (.destroyVault %d)','set':'op (.destroySet %d)','ref':'op (.refReset %d)'}[k]%i)
    def run(self,body):
        self.loc={};self.ity={};self.ptrs=set();self.init={};self.outv={};self.lastty=None;self.vecs={};self.preds=[];self.queue=[];self.blocked=False
        for s in stmts(strip_comments(body)):
            if self.blocked and not (isinstance(s,str) and re.match(r'COMPARE_OPERATION|TEST_ASSERT|COMPARE_VAULT',s)): 
                # new reference variables were made: later declarations would shift; stop numbering
                if isinstance(s,str) and re.match(r'VaultRecordRef',s): skip('refs after GetRecords')
            self.stmt(s)
        self.close()
        txt=',\n    '.join(self.out)
        for n,p in enumerate(self.preds):
            _,k,t,x,cond=p
            acc=[]
            for v,pv in self.vals.items():
                if v%8!=t: continue
                c=cond
                if t==1: ok=eval(re.sub(r'%s\.length\(\)'%x,str(len(pv)),c))
                else: ok=eval(re.sub(r'\b%s\b'%x,'(%d)'%pv,c).replace('&&',' and ').replace('||',' or ').replace('!(',' not ('))
                if ok: acc.append(v)
            txt=txt.replace('⟦%d⟧'%n,'decide ((cell w r %d).any (fun v => decide (v ∈ ([%s] : List TV))))'%(k,', '.join(map(str,sorted(acc)))))
        return txt
def main():
    tot=0;done=0;blocks=[]
    for f,tag in FILES:
        txt=open(SRC+f).read()
        for suite,case,body in tests(txt):
            tot+=1
            if '< 1000' in body: body=re.sub(r'\b1000\b','10',re.sub(r'\b999\b','9',re.sub(r'\b100\b','5',body)))
            t=T(body)
            try:
                s=t.run(body); done+=1
                line=txt[:txt.index('TEST_BODY(%s, %s,'%(suite,case))].count('\n')+1
                blocks.append('/-- %s line %d: %s, %s. -/\ntheorem conf_%s_%s_%s : runT %s [\n    %s] = true := by decide\n'%(f,line,suite,case,tag,suite,case,'Env.rev' if (suite,case) in REV else 'Env.id',s))
            except Skip as e:
                if '-v' in sys.argv: print('skip',f,suite,case,':',str(e)[:100].replace('\n',' '))
    print(done,'of',tot)
    for k,v in unknown.most_common(45): print(v,k.replace('\n',' '))
    per=60
    n=0
    for i in range(0,len(blocks),per):
        n+=1
        open(OUT+'Conf%d.lean'%n,'w').write('import Verif.ConfBase\n/- Generated by conformance/gen.py from the unit tests of the project: validation of the model. -/\nset_option maxRecDepth 100000\nnamespace MVault.Conf\nopen MVault.W\n\n'+'\n'.join(blocks[i:i+per])+'\nend MVault.Conf\n')
    print(n,'modules')
if __name__=='__main__': main()
