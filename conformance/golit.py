import re,ast
TOK=re.compile(r'''(?P<ws>\s+|//[^\n]*|/\*.*?\*/)|(?P<raw>`[^`]*`)|(?P<str>"(?:\\.|[^"\\])*")|(?P<chr>'(?:\\.|[^'\\])+')|(?P<num>0[xX][0-9a-fA-F]+|\d+)|(?P<id>[A-Za-z_]\w*)|(?P<p>:=|\.\.\.|==|!=|&&|\|\||<<|[{}()\[\],:.&*+\-=<>;!|])''',re.S)
def tokens(s):
    i=0;out=[]
    while i<len(s):
        m=TOK.match(s,i)
        if not m: raise Exception('tok %r'%s[i:i+40])
        i=m.end()
        if m.lastgroup!='ws': out.append((m.lastgroup,m.group(),m.start()))
    return out
def unq(t):
    if t[0]=='`': return t[1:-1].replace('\r','')
    body=t[1:-1]
    esc={'n':'\n','t':'\t','r':'\r','\\':'\\','"':'"',"'":"'",'a':'\a','b':'\b','f':'\f','v':'\v'}
    out=[];i=0;by=bytearray()
    while i<len(body):
        c=body[i]
        if c!='\\': by+=c.encode(); i+=1; continue
        d=body[i+1]
        if d in esc: by+=esc[d].encode(); i+=2
        elif d=='x': by.append(int(body[i+2:i+4],16)); i+=4
        elif d=='u': by+=chr(int(body[i+2:i+6],16)).encode(); i+=6
        elif d=='U': by+=chr(int(body[i+2:i+10],16)).encode(); i+=10
        else: by.append(int(body[i+1:i+4],8)); i+=4
    return by.decode('utf-8')
class P:
    def __init__(s,toks): s.t=toks; s.i=0
    def pk(s,k=0): return s.t[s.i+k][1] if s.i+k<len(s.t) else None
    def kind(s,k=0): return s.t[s.i+k][0] if s.i+k<len(s.t) else None
    def eat(s,v):
        assert s.pk()==v,(s.pk(),v,s.t[s.i]); s.i+=1
    # type expression -> string
    def typ(s):
        if s.pk()=='[':
            s.i+=1; s.eat(']'); return '[]'+s.typ()
        if s.pk()=='*':
            s.i+=1; return '*'+s.typ()
        if s.pk()=='struct':
            s.i+=1; s.eat('{'); d=1
            while d:
                if s.pk()=='{': d+=1
                if s.pk()=='}': d-=1
                s.i+=1
            return 'struct'
        n=s.pk(); assert s.kind()=='id',s.t[s.i]; s.i+=1
        while s.pk()=='.': s.i+=1; n=s.pk(); s.i+=1   # drop the package
        return n
    def expr(s,ety=None):
        v=s.prim(ety)
        while s.pk() in('+','|'):
            s.i+=1; w=s.prim(ety)
            v = v+w if isinstance(v,(str,int)) and isinstance(w,type(v)) else ('or',v,w)
        return v
    def prim(s,ety=None):
        k,t=s.kind(),s.pk()
        if t=='(':
            s.i+=1; v=s.expr(); s.eat(')'); return v
        if k in('raw','str'): s.i+=1; return unq(t)
        if k=='chr': s.i+=1; return unq(t)
        if k=='num': s.i+=1; return int(t,0)
        if t=='-': s.i+=1; return -s.prim()
        if t=='&': s.i+=1; return s.prim()
        if t=='{': return s.comp(ety)
        if t=='true': s.i+=1; return True
        if t=='false': s.i+=1; return False
        if t=='nil': s.i+=1; return None
        ty=s.typ()
        if s.pk()=='{': return s.comp(ty)
        if s.pk()=='(':
            s.i+=1; v=s.expr(); s.eat(')'); return bytes(v).decode() if isinstance(v,list) else v
        return ('name',ty)
    def comp(s,ty):
        s.eat('{'); ty=(ty or '').lstrip('*')
        if ty.startswith('[]'):
            e=ty[2:]; out=[]
            while s.pk()!='}':
                out.append(s.expr(e))
                if s.pk()==',': s.i+=1
            s.eat('}'); return out
        d={'_type':ty}
        while s.pk()!='}':
            n=s.pk(); s.i+=1; s.eat(':')
            d[n]=s.expr(FT.get(n))
            if s.pk()==',': s.i+=1
        s.eat('}'); return d
FT={'wants':None}
def tables(path):
    src=open(path,encoding='utf-8').read()
    out=[]
    for m in re.finditer(r'^func (Test\w+)\(t \*testing\.T\) \{',src,re.M):
        j=src.index('tests := []struct',m.end())
        e=src.find('\nfunc ',m.end()); e=len(src) if e<0 else e
        toks=tokens(src[j+len('tests := '):e])
        p=P(toks); ty=p.typ(); v=p.comp(ty)
        out.append((m.group(1),v,src[:j].count('\n')+1))
    return out
