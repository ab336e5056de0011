#!/usr/bin/env python3
"""Translate the unit tests about texts and files (ToJson, ToStrings, Print, SaveToFile, ReadFile, GetErrorsInLastReadedFile, GetDataAsString) into tests
of the Lean text model (lean/Verif/ConfText.lean). Iteration order of std::unordered_set: last inserted first (libstdc++)."""
import re,sys
import gen
from gen import split,stmts,strip_comments,tests,Skip
SUITES={'ToJson','ToStrings','ToString','Print','SaveToFile','ReadFile','GetErrorsInLastReadedFile','GetDataAsString','GetKeys'}
ESC={'n':'\n','r':'\r','t':'\t','"':'"','\\':'\\'}
def unq(s):
    """the C++ string literals in s, joined"""
    out='';s=s.strip()
    while s:
        m=re.match(r'R"([^(]*)\((.*?)\)\1"',s,re.S)
        if m: out+=m.group(2); s=s[m.end():].strip(); continue
        m=re.match(r'"((?:[^"\\]|\\.)*)"',s,re.S)
        if not m: raise Skip('literal '+s[:40])
        out+=re.sub(r'\\(.)',lambda x:ESC[x.group(1)],m.group(1)); s=s[m.end():].strip()
    return out
def ch(c):
    if c=='\n': return "'\\n'"
    if c=='\r': return "'\\r'"
    if c=="'": return "'\\''"
    if c=='\\': return "'\\\\'"
    return "'%s'"%c
def L(s): return '['+', '.join(ch(c) for c in s)+']'
TY={'int':'(.int .i32)','std::size_t':'(.int .u64)','std::string':'.str','bool':'.bool'}
def val(e,t=None):
    e=e.strip()
    m=re.fullmatch(r'(std::size_t|std::string|int|bool)\((.*)\)',e,re.S)
    if m: return val(m.group(2),m.group(1))
    if re.fullmatch(r'-?\d+',e):
        if t=='std::size_t': return '(vz %s)'%e
        if t in(None,'int'): return '(vi (%s))'%e
    if e in('true','false'): return '(.bool %s)'%e
    if e.startswith('"') and t=='std::string': return '(.str %s)'%L(unq(e))
    raise Skip('value '+e)
def text(e):
    """the text of a value, for COMPARE_VAULT"""
    e=e.strip()
    m=re.fullmatch(r'(std::size_t|std::string|int|bool)\((.*)\)',e,re.S)
    if m: e=m.group(2)
    if e.startswith('"'): return unq(e)
    if re.fullmatch(r'-?\d+|true|false',e): return e
    raise Skip('text '+e)
def params(e,f,raw=False):
    inner=e.strip()[1:-1].strip().rstrip(',')
    if inner in('','{}'): return '[]'
    out=[]
    for p in split(inner):
        k,v=split(p.strip()[1:-1]); out.append('(%s, %s)'%(L(unq(k)),f(v)))
    return '['+', '.join(out)+']'
class X:
    def __init__(self): self.v={};self.no=0;self.nr=0;self.out=[];self.file='none';self.var={};self.last=(0,'','')
    def new(self,kind,n):
        if kind=='ref': self.v[n]=(kind,self.nr); self.nr+=1
        else: self.v[n]=(kind,self.no); self.no+=1
        self.out.append('op .new%s'%{'vault':'Vault','set':'Set','ref':'Ref'}[kind])
    def stmt(self,s):
        if not isinstance(s,str): raise Skip('block')
        s=s.strip()
        m=re.fullmatch(r'GENERATE_SET\((\w+)\)',s)
        if m:
            n=m.group(1)
            for x in ['VaultRecordSet %s'%n,'vlt.AddKey("A", 0)','vlt.CreateRecord({{}})','vlt.RequestEqual("A", 0, %s)'%n,'vlt.EraseRecord("A", 0)','vlt.RemoveKey("A")']: self.stmt(x)
            return
        m=re.fullmatch(r'(Vault|VaultRecordSet|VaultRecordRef) ([\w, ]+)',s)
        if m:
            for n in split(m.group(2)): self.new({'Vault':'vault','VaultRecordSet':'set','VaultRecordRef':'ref'}[m.group(1)],n)
            return
        if re.fullmatch(r'VaultOperationResult \w+|bool \w+ = false|std::string (\w+)|std::string fileName = .*',s,re.S):
            m=re.fullmatch(r'std::string (\w+)',s)
            if m: self.var[m.group(1)]=''
            return
        m=re.fullmatch(r'SAVE_FILE\((.*)\)',s,re.S)
        if m: self.file='(some %s)'%L(unq(m.group(1))); return
        m=re.fullmatch(r'std::vector<std::pair<std::size_t, std::string>> res = \{(.*)\}',s)
        if m:
            self.errs='['+', '.join('(%s, %s)'%(split(p[1:-1])[0],L(unq(split(p[1:-1])[1]))) for p in split(m.group(1)) if p)+']'; return
        m=re.fullmatch(r'TEST_ASSERT\((\w+)\.GetErrorsInLastReadedFile\(\) == res\)',s)
        if m: self.out.append('errors %s'%self.errs); return
        m=re.fullmatch(r'(?:res = |TEST_ASSERT\()(\w+)\.(SaveToFile|ReadFile)\((.*)\)( == false)?',s,re.S) or re.fullmatch(r'TEST_ASSERT\((\w+)\.(SaveToFile|ReadFile)\((.*?)\)( == false)?\)',s,re.S)
        if m:
            inner=m.group(3)
            if s.startswith('TEST_ASSERT(') : inner=re.fullmatch(r'TEST_ASSERT\(\w+\.\w+\((.*)\)(?: == false)?\)',s,re.S).group(1)
            a=split(inner); kind,i=self.v[m.group(1)]; neg=' == false' in s[-12:]
            if m.group(2)=='SaveToFile':
                if neg: raise Skip('cannot open')
                ks='['+', '.join(L(unq(x)) for x in split(a[1][1:-1]) if x)+']' if len(a)>1 else '[]'
                self.save=(i,ks,L(unq(a[2])) if len(a)>2 else "[',']",a[3] if len(a)>3 else 'true'); return
            sep=a[1].replace('COMMA',"','") if len(a)>1 else "','"
            h='(fun _ r => r)'; load='true'; ks='[]'
            if len(a)>2:
                if a[2] in('true','false'): load=a[2]
                else:
                    if 'if (keys[i] == "A") values[i] += "0";' not in a[2]: raise Skip('handler')
                    h="(fun ks r => List.zipWith (fun k v => if k = ['A'] then v ++ ['0'] else v ++ ['0', '0']) ks r)"
            if len(a)>3: ks='['+', '.join(L(unq(x)) for x in split(a[3][1:-1]) if x)+']'
            self.out.append('read %s %d %s %s %s %s %s'%(h,i,'none' if neg else self.file,sep,load,ks,'false' if neg else 'true')); return
        m=re.fullmatch(r'COMPARE_FILE\(fileName, true, (.*)\)',s,re.S)
        if m: self.out.append('save %d %s %s %s %s'%(self.save+(L(unq(m.group(1))),))); return
        m=re.fullmatch(r'(?:std::string )?res = (\w+)\.ToJson\((.*)\)',s)
        if m: self.res=(m.group(1),split(m.group(2)) if m.group(2) else []); return
        m=re.fullmatch(r'TEST_ASSERT\(res == (true|false)\)',s)
        if m: return
        m=re.fullmatch(r'TEST_ASSERT\(res == (.*)\)',s,re.S)
        if m: return self.json(*self.res,m.group(1))
        m=re.fullmatch(r'TEST_ASSERT\((\w+)\.ToJson\(([^)]*)\) == (.*)\)',s,re.S)
        if m: return self.json(m.group(1),split(m.group(2)) if m.group(2) else [],m.group(3))
        m=re.fullmatch(r'TEST_ASSERT\((\w+)\.ToStrings\(\) == decltype.*\)',s)
        if m: kind,i=self.v[m.group(1)]; self.out.append('strings %s %d []'%('true' if kind=='set' else 'false',i)); return
        m=re.fullmatch(r'std::vector<std::pair<std::string, std::string>> strings = (\w+)\.ToStrings\(\)',s)
        if m: self.sv=(self.v[m.group(1)][1],[]); self.out.append(self.sv); return
        m=re.fullmatch(r'(?:std::pair<std::string, std::string> )?res(?: = \{|\()"(\w+)", "(\w*)"(?:\}|\))',s)
        if m: self.pair='(%s, %s)'%(L(m.group(1)),L(m.group(2))); return
        m=re.fullmatch(r'TEST_ASSERT\(strings\[(\d)\] == res\)',s)
        if m and int(m.group(1))==len(self.sv[1]): self.sv[1].append(self.pair); return
        m=re.fullmatch(r'TEST_ASSERT\(strings\.size\(\) == 0\)',s)
        if m: return
        m=re.fullmatch(r'TEST_COUT\((\w+)\.Print\((.*?)\), (".*)\)',s,re.S)
        if m:
            kind,i=self.v[m.group(1)]; a=split(m.group(2)) if m.group(2) else []
            lines=unq(m.group(3)).split('\n')
            if lines[-1]!='' : raise Skip('lines')
            lines=lines[:-1]
            if re.fullmatch(r' \(\d+ records\)',lines[-1]): self.out.append('size %d %s'%(i,re.search(r'\d+',lines[-1]).group(0))); lines=lines[:-1]
            else: raise Skip('count line '+lines[-1])
            ks='['+', '.join(L(unq(x)) for x in split(a[4][1:-1]) if x)+']' if len(a)>4 else '[]'
            self.out.append('print %d %s %s %s %s [%s]'%(i,a[1] if len(a)>1 else '(2 ^ 64 - 1)',L(unq(a[2])) if len(a)>2 else '[]',a[3] if len(a)>3 else 'false',ks,',\n      '.join(L(x) for x in lines))); return
        m=re.fullmatch(r'COMPARE_VAULT\((\w+), (.*)\)',s,re.S)
        if m:
            kind,i=self.v[m.group(1)]; inner=m.group(2).strip()[1:-1].strip().rstrip(',')
            self.out.append('strings %s %d [%s]'%('true' if kind=='set' else 'false',i,', '.join(params(r,lambda v:L(text(v))) for r in split(inner) if r))); return
        m=re.fullmatch(r'(?:vor = )?(\w+)\.GetDataAsString\("(\w+)", (\w+)\)',s)
        if m: self.last=(self.v[m.group(1)][1],m.group(2),m.group(3)); return
        m=re.fullmatch(r'COMPARE_OPERATION\((.*)\)',s,re.S)
        if m: return
        if s=='TEST_ASSERT(keys.empty())' or s=='TEST_ASSERT(strings.empty())': return
        m=re.fullmatch(r'TEST_ASSERT\((\w+) == (".*")\)',s) or re.fullmatch(r'TEST_ASSERT\((\w+)\.(empty)\(\)\)',s)
        if m and m.group(1)==self.last[2]:
            f,k,x=self.last; new=unq(m.group(2)) if m.group(2)!='empty' else ''
            self.out.append('asString %d %s %s %s'%(f,L(k),L(self.var[x]),L(new))); self.var[x]=new; return
        m=re.fullmatch(r'std::vector<std::string> keys = (\w+)\.GetKeys\(\)',s)
        if m: self.kk=[self.v[m.group(1)][1],0,[]]; self.out.append(self.kk); return
        m=re.fullmatch(r'TEST_ASSERT\(keys\.size\(\) == (\d)\)',s)
        if m: self.kk[1]=int(m.group(1)); return
        m=re.fullmatch(r'TEST_ASSERT\(keys\[(\d)\] == "(\w+)"\)',s)
        if m and int(m.group(1))==len(self.kk[2]): self.kk[2].append(L(m.group(2))); return
        m=re.fullmatch(r'(?:vor = )?(\w+)\.(\w+)(?:<([\w:]+)>)?\((.*)\)',s,re.S)
        if m and m.group(1) in self.v:
            kind,i=self.v[m.group(1)]; t=m.group(3); a=split(m.group(4)); f=m.group(2)
            k=lambda:L(unq(a[0]))
            if f=='AddKey': o='.addKey %d %s %s'%(i,k(),val(a[1],t))
            elif f=='AddUniqueKey' and len(a)==1: o='.addUniqueKey %d %s %s true (fun _ _ _ => .bool false)'%(i,k(),TY[t])
            elif f=='CreateRecord' and len(a)==1: o='.createRow %d %s'%(i,params(a[0],val))
            elif f=='CreateRecord': o='.createRecord %d %d %s'%(i,self.v[a[0]][1],params(a[1],val))
            elif f=='RequestEqual': o='.request %d .Equal %s %s %s false false none (fun _ => true) %d'%(i,k(),val(a[1],t),val(a[1],t),self.v[a[2]][1])
            elif f=='EraseRecord' and len(a)==2: o='.eraseKV %d %s %s'%(i,k(),val(a[1],t))
            elif f=='EraseRecord': o='.eraseRef %d %d'%(i,self.v[a[0]][1])
            elif f=='RemoveKey': o='.removeKey %d %s'%(i,k())
            elif f=='AddRecord': o='.setAddRecord %d %d'%(i,self.v[a[0]][1])
            elif f=='GetRecord': o='.getRecord %d %s %s %d'%(i,k(),val(a[1],t),self.v[a[2]][1])
            else: raise Skip('call '+f)
            self.out.append('op (%s)'%o); return
        raise Skip('stmt '+s[:60])
    def json(self,n,a,e):
        kind,i=self.v[n]; out=L(unq(e))
        if kind=='ref': self.out.append('refJson %d %s %s %s'%(i,a[0] if a else 'true',a[1] if len(a)>1 else '2',out)); return
        d=['false','2','true','"Record"','false']; a=a+d[len(a):]
        self.out.append('json %s %d %s %s %s %s %s %s'%('true' if kind=='set' else 'false',i,a[0],a[1],a[2],L(unq(a[3])),a[4],out))
    def run(self,body):
        for s in stmts(strip_comments(body)): self.stmt(s)
        o=[]
        for x in self.out:
            if isinstance(x,tuple): x='refStrings %d [%s]'%(x[0],', '.join(x[1]))
            elif isinstance(x,list):
                if x[1]!=len(x[2]): raise Skip('keys')
                x='keysOf %d [%s]'%(x[0],', '.join(x[2]))
            o.append(x)
        if not any(not x.startswith('op ') for x in o): raise Skip('no assertion')
        return ',\n    '.join(o)
# raw strings contain parentheses: mask them for the statement splitter
def mask(b):
    def f(m): return '"'+''.join({'\n':'\\n','"':'\\"','\\':'\\\\'}.get(c,c) for c in m.group(2))+'"'
    return re.sub(r'R"([^(\s]*)\((.*?)\)\1"',f,b,flags=re.S)
blocks=[];tot=0
for f,tag in gen.FILES:
    txt=open(gen.SRC+f).read()
    for suite,case,body in re.findall(r'^TEST_BODY\((\w+), (\w+),\n(.*?)\n\)$',txt,re.M|re.S):
        if suite not in SUITES or not re.search(r'ToJson|ToStrings|COMPARE_VAULT.*|Print|File|GetDataAsString|vrr\.GetKeys',body): continue
        tot+=1
        try:
            b=mask(body).replace("','",'COMMA')
            if (suite,case)==('SaveToFile','Empty') and tag=='vault': raise Skip('the model says undefined behaviour: Vault.cpp line 971 reads through the end iterator of an empty list')
            # comments must not be stripped inside literals: no literal of the tests contains //
            s=X().run(b)
            line=txt[:txt.index('TEST_BODY(%s, %s,'%(suite,case))].count('\n')+1
            blocks.append('/-- %s line %d: %s, %s. -/\ntheorem conf_text_%s_%s_%s : runX [\n    %s] = true := by decide +kernel\n'%(f,line,suite,case,tag,suite,case,s))
        except (Skip,KeyError,AttributeError,TypeError) as e: print('skip',f,suite,case,repr(e)[:100])
print(len(blocks),'of',tot)
open(gen.OUT+'ConfText.lean','w').write('import Verif.ConfTextBase\n/- Generated by conformance/gentext.py from the unit tests of the project: validation of the text model. -/\nset_option maxRecDepth 100000\nnamespace MVault.ConfText\nopen MVault.W\n\n'+'\n'.join(blocks)+'\nend MVault.ConfText\n')
