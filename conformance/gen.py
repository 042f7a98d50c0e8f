"""Translates the tables of the unit tests in /repo (read as text) into Lean examples about the model.

Run it as `python3 conformance/gen.py` in /verif: it rewrites lean/Verif/Conformance/*.lean (all but
Basic.lean).  golit.py reads the composite literals of Go.
"""
import golit
from golit import tables
C='[]*Comment'
golit.FT.update({'Comments':C,'Declarations':'[]*Declaration','FieldOptions':'[]*FieldOption','wants':'[]want','OneofFields':'[]*OneofField','Options':'[]*Option','Ranges':'[]*Range','EnumValueOptions':'[]*EnumValueOption'})
def lstr(s):
    out='"'
    for ch in s:
        o=ord(ch)
        if ch=='"': out+='\\"'
        elif ch=='\\': out+='\\\\'
        elif ch=='\n': out+='\\n'
        elif ch=='\t': out+='\\t'
        elif ch=='\r': out+='\\r'
        elif 32<=o<127: out+=ch
        elif o<256: out+='\\x%02x'%o
        elif o<65536: out+='\\u%04x'%o
        else: out+=ch
    return 'c!'+out+'"'
def b(x): return 'true' if x else 'false'
def pos(p):
    p=p or {}
    return '⟨%s, %d, %d, %d⟩'%(lstr(p['Filename']) if p.get('Filename') else '[]',p.get('Offset') or 0,p.get('Line') or 0,p.get('Column') or 0)
def meta(m):
    m=m or {}
    return '⟨%s, %s⟩'%(pos(m.get('Pos')),pos(m.get('LastPos')))
def comment(c): return '⟨%s, %s⟩'%(lstr(c.get('Raw','')),meta(c.get('Meta')))
def lst(f,l): return '['+', '.join(f(x) for x in (l or []))+']'
def opt(f,x): return 'none' if x is None else '(some %s)'%f(x)
# schema: list of (lean field, go field, converter)
S=lambda x: lstr(x or '')
B=b
def struct(fields,omit=True):
    def f(d):
        known={g for _,g,_ in fields}|{'_type'}
        assert set(d)<=known,(set(d)-known)
        return '{ '+', '.join('%s := %s'%(l,cv(d.get(g))) for l,g,cv in fields if not(omit and 'omment' in l and not d.get(g)))+' }'
    return f
OC=lambda x: opt(comment,x)
CS=lambda x: lst(comment,x)
def lf(f): return lambda x: lst(f,x)
def of(f): return lambda x: opt(f,x)
tail=[('comments','Comments',CS),('inlineComment','InlineComment',OC),('info','Meta',meta)]
tailc=tail+[('inlineCommentBehindLeftCurly','InlineCommentBehindLeftCurly',OC)]
def mod(x): return {'ImportModifierPublic':'.public','ImportModifierWeak':'.weak'}.get(x[1] if x else None,'.none')
fo=struct([('optionName','OptionName',S),('constant','Constant',S)])
rng=struct([('begin_','Begin',S),('end_','End',S)])
F={}
F['Comment']=comment
F['EmptyStatement']=struct([('inlineComment','InlineComment',OC)])
F['Syntax']=struct([('protobufVersion','ProtobufVersion',S),('protobufVersionQuote','ProtobufVersionQuote',S)]+tail)
F['Edition']=struct([('edition','Edition',S),('editionQuote','EditionQuote',S)]+tail)
F['Import']=struct([('modifier','Modifier',mod),('location','Location',S)]+tail)
F['Package']=struct([('name','Name',S)]+tail)
F['Option']=struct([('optionName','OptionName',S),('constant','Constant',S)]+tail)
lab=[('isRepeated','IsRepeated',B),('isRequired','IsRequired',B),('isOptional','IsOptional',B)]
F['Field']=struct(lab+[('type','Type',S),('fieldName','FieldName',S),('fieldNumber','FieldNumber',S),('fieldOptions','FieldOptions',lf(fo))]+tail)
F['MapField']=struct([('keyType','KeyType',S),('type','Type',S),('mapName','MapName',S),('fieldNumber','FieldNumber',S),('fieldOptions','FieldOptions',lf(fo))]+tail)
F['OneofField']=struct([('type','Type',S),('fieldName','FieldName',S),('fieldNumber','FieldNumber',S),('fieldOptions','FieldOptions',lf(fo))]+tail)
F['Oneof']=struct([('oneofFields','OneofFields',lf(F['OneofField'])),('oneofName','OneofName',S),('options','Options',lf(F['Option']))]+tailc)
F['EnumField']=struct([('ident','Ident',S),('number','Number',S),('enumValueOptions','EnumValueOptions',lf(fo))]+tail)
F['Reserved']=struct([('ranges','Ranges',lf(rng)),('fieldNames','FieldNames',lf(S))]+tail)
F['Declaration']=struct([('number','Number',S),('fullName','FullName',S),('type','Type',S),('reserved','Reserved',B),('repeated','Repeated',B)]+tailc)
F['Extensions']=struct([('ranges','Ranges',lf(rng)),('declarations','Declarations',lf(F['Declaration'])),('inlineCommentBehindLeftSquare','InlineCommentBehindLeftSquare',OC)]+tail)
rm=struct([('isStream','IsStream',B),('messageType','MessageType',S),('info','Meta',meta)])
RM=lambda x: rm(x or {})
F['RPC']=struct([('rpcName','RPCName',S),('rpcRequest','RPCRequest',RM),('rpcResponse','RPCResponse',RM),('options','Options',lf(F['Option'])),('embeddedComments','EmbeddedComments',CS)]+tailc)
V=lambda x: visitee(x)
F['Message']=struct([('messageName','MessageName',S),('messageBody','MessageBody',lf(V))]+tailc)
F['GroupField']=struct(lab+[('groupName','GroupName',S),('messageBody','MessageBody',lf(V)),('fieldNumber','FieldNumber',S)]+tailc)
F['Enum']=struct([('enumName','EnumName',S),('enumBody','EnumBody',lf(V))]+tailc)
F['Extend']=struct([('messageType','MessageType',S),('extendBody','ExtendBody',lf(V))]+tailc)
F['Service']=struct([('serviceName','ServiceName',S),('serviceBody','ServiceBody',lf(V))]+tailc)
F['Proto']=struct([('syntax_','Syntax',of(F['Syntax'])),('edition','Edition',of(F['Edition'])),('protoBody','ProtoBody',lf(V)),('metaFilename','Meta',lambda m: S((m or {}).get('Filename','')))])
CT={'Comment':'comment','Import':'importStmt','Package':'package','Option':'option','Message':'message','Enum':'enum','Service':'service','Extend':'extend','EmptyStatement':'emptyStatement','Field':'field','EnumField':'enumField','Oneof':'oneof','MapField':'mapField','GroupField':'groupField','Reserved':'reserved','Extensions':'extensions','RPC':'rpc'}
def visitee(x):
    if x is None: return '.nil'
    t=x['_type']; return '.%s %s'%(CT[t],F[t](x))
# unordered
U={}
def body(fields):
    f=struct(fields); return lambda x: f(x or {'_type':''})
U['Enum']=struct([('enumName','EnumName',S),('enumBody','EnumBody',body([('options','Options',lf(F['Option'])),('enumFields','EnumFields',lf(F['EnumField'])),('reserveds','Reserveds',lf(F['Reserved'])),('emptyStatements','EmptyStatements',lf(F['EmptyStatement']))]))]+tailc,False)
U['Extend']=struct([('messageType','MessageType',S),('extendBody','ExtendBody',body([('fields','Fields',lf(F['Field'])),('emptyStatements','EmptyStatements',lf(F['EmptyStatement']))]))]+tailc,False)
U['Service']=struct([('serviceName','ServiceName',S),('serviceBody','ServiceBody',body([('options','Options',lf(F['Option'])),('rpcs','RPCs',lf(F['RPC']))]))]+tailc,False)
mbody=body([('fields','Fields',lf(F['Field'])),('enums','Enums',lf(U['Enum'])),('messages','Messages',lf(lambda x:U['Message'](x))),('options','Options',lf(F['Option'])),('oneofs','Oneofs',lf(F['Oneof'])),('maps','Maps',lf(F['MapField'])),('groups','Groups',lf(F['GroupField'])),('reserves','Reserves',lf(F['Reserved'])),('extends_','Extends',lf(F['Extend'])),('emptyStatements','EmptyStatements',lf(F['EmptyStatement'])),('extensions','Extensions',lf(F['Extensions']))])
def umsg(x): return '(.mk %s %s %s %s %s %s)'%(S(x.get('MessageName')),mbody(x.get('MessageBody')),CS(x.get('Comments')),OC(x.get('InlineComment')),OC(x.get('InlineCommentBehindLeftCurly')),meta(x.get('Meta')))
U['Message']=umsg
U['Proto']=struct([('syntax_','Syntax',of(F['Syntax'])),('protoBody','ProtoBody',body([('imports','Imports',lf(F['Import'])),('packages','Packages',lf(F['Package'])),('options','Options',lf(F['Option'])),('messages','Messages',lf(umsg)),('extends_','Extends',lf(U['Extend'])),('enums','Enums',lf(U['Enum'])),('services','Services',lf(U['Service'])),('emptyStatements','EmptyStatements',lf(F['EmptyStatement']))]))])
golit.FT.update({'Imports':'[]*Import','Packages':'[]*Package','Messages':'[]*Message','Enums':'[]*Enum','Services':'[]*Service','Fields':'[]*Field','EnumFields':'[]*EnumField','RPCs':'[]*RPC','Oneofs':'[]*Oneof','Maps':'[]*MapField'})
R='/repo/'
PT=[('declaration','Declaration',0),('edition','Edition',0),('enum','Enum',1),('extend','Extend',1),('extensions','Extensions',0),('field','Field',1),('groupField','GroupField',1),('import','Import',0),('mapField','MapField',1),('message','Message',1),('oneof','Oneof',1),('option','Option',1),('package','Package',0),('proto','Proto',1),('reserved','Reserved',0),('service','Service',1),('syntax','Syntax',0)]
LN={'Option':'OptionStmt'}
out=[]   # (name comment, lhs, rhs)
def add(where,lhs,rhs): out.append((where,lhs,rhs))
for f,T,hascfg in PT:
    for fn,ts,line in tables(R+'parser/%s_test.go'%f):
        for t in ts:
            t.setdefault('name','')
            cfg='(cfg %s %s)'%(b(t.get('permissive') or t.get('inputPermissive')),b(t.get('inputBodyIncludingComments')))
            fun='parse%s%s'%(T,' '+cfg if hascfg else '')
            w=[k for k in t if k.startswith('want') and k!='wantErr']
            run='(%s) %s %s'%(fun,S(t.get('filename')),S(t.get('input')))
            where='%s_test.go: %s'%(f,t['name'])
            if t.get('wantErr'): add(where,'fails '+run,'true')
            else:
                key=[k for k in w]; want=t[key[0]] if key else None
                ty=LN.get(T,T)
                if T in('Syntax','Edition'): add(where,'reads '+run,'some (%s, true)'%opt(F[T],want))
                else: add(where,'reads '+run,'some (%s, true)'%F[T](want))
for fn,ts,line in tables(R+'parser/comment_test.go'):
    for t in ts:
        where='comment_test.go: '+t['name']
        if fn=='TestComment_IsCStyle': add(where,'Comment.isCStyle %s'%comment(t['inputComment']),b(t.get('wantIsCStyle')))
        elif fn=='TestComment_Lines': add(where,'Comment.lines %s'%comment(t['inputComment']),lst(S,t['wantLines']))
        else: add(where,'reads parseComments [] %s'%S(t.get('input')),'some (%s, true)'%CS(t.get('wantComments')))
for fn,ts,line in tables(R+'parser/inlineComment_test.go'):
    for t in ts:
        add('inlineComment_test.go: '+t['name'],'reads inlineAfterField [] %s'%S(t.get('input')),'some (%s, true)'%OC(t.get('wantInlineComment')))
for f,call in (('constant','Lexer.readConstant true'),('enumType','Lexer.readEnumType'),('fullIdent','Lexer.readFullIdent'),('messageType','Lexer.readMessageType')):
    for fn,ts,line in tables(R+'lexer/%s_test.go'%f):
        for t in ts:
            where='%s_test.go: %s'%(f,t['name'])
            run='(%s) [] %s'%(call,S(t['input']))
            if t.get('wantErr'): add(where,'fails '+run,'true')
            else: add(where,'lexes '+run,'some (%s, ⟨[], 0, 1, 1⟩, %s)'%(S(t.get('wantText')),b(t.get('wantIsEOF'))))
for fn,ts,line in tables(R+'lexer/emptyStatement_test.go'):
    for t in ts:
        where='emptyStatement_test.go: '+t['name']
        run='Lexer.readEmptyStatement [] '+S(t['input'])
        if t.get('wantErr'): add(where,'fails '+run,'true')
        else: add(where,'reads '+run,'some ((), true)')
for fn,ts,line in tables(R+'lexer/scanner/position_test.go'):
    for t in ts:
        where='position_test.go: '+t['name']
        if fn=='TestPosition_Advance': e='%s.foldl SPos.advance (SPos.new [])'%S(''.join(t['inputRunes']))
        else: e='%s.foldl SPos.revert (%s.foldl SPos.advance (SPos.new []))'%(S(''.join(t['inputRevertingRunes'])),S(''.join(t['inputAdvancingRunes'])))
        add(where,'(%s).p'%e,pos({'Offset':t.get('wantOffset',0),'Line':t.get('wantLine',0),'Column':t.get('wantColumn',0)}))
TK={'TILLEGAL':'illegal','TEOF':'eof','TIDENT':'ident','TINTLIT':'intLit','TFLOATLIT':'floatLit','TBOOLLIT':'boolLit','TSTRLIT':'strLit','TCOMMENT':'comment','TMINUS':'minus','TDOT':'dot','TMESSAGE':'kMessage','TSERVICE':'kService','TSEMICOLON':'semicolon','TQUOTE':'quote','TEQUALS':'equals','TCOMMA':'comma','TLEFTPAREN':'leftParen','TRIGHTPAREN':'rightParen','TLEFTCURLY':'leftCurly','TRIGHTCURLY':'rightCurly','TLEFTSQUARE':'leftSquare','TRIGHTSQUARE':'rightSquare','TLESS':'less','TGREATER':'greater','TCOLON':'colon'}
MD={None:'{}','ScanBoolLit':'{ bool := true }','ScanKeyword':'{ keyword := true }','ScanComment':'{ comment := true }','ScanStrLit':'{ str := true }','ScanNumberLit':'{ number := true }'}
def tk(x):
    n=x[1] if x else 'TILLEGAL'
    return '.'+(TK.get(n) or ('k'+n[1:].capitalize()))
for fn,ts,line in tables(R+'lexer/scanner/scanner_test.go'):
    for t in ts:
        where='scanner_test.go: '+t['name']
        md=MD[t['mode'][1] if t.get('mode') else None]
        if fn=='TestScanner_Scan':
            ws=[]
            for w in t.get('wants') or []:
                ws.append('(%s, %s, %s, %s)'%(tk(w.get('token')),S(w.get('text')),pos(w.get('pos',{}).get('Position')),b(w.get('isErr'))))
            add(where,'scans %d { Scanner.new %s [] with mode := %s }'%(len(ws),S(t.get('input')),md),'([%s], true)'%', '.join(ws))
        else:
            add(where,'rescans { Scanner.new %s [] with mode := %s }'%(S(t.get('input')),md),'some (%s, true, true)'%pos(t['wantPosition']['Position']))
for fn,ts,line in tables(R+'parser/meta/position_test.go'):
    for t in ts: add('meta/position_test.go: '+t['name'],'(%s : Position).string'%pos(t['inputPos']),S(t['wantString']))
for f,T in (('enum','Enum'),('message','Message'),('proto','Proto'),('service','Service')):
    for fn,ts,line in tables(R+'interpret/unordered/%s_test.go'%f):
        for t in ts:
            where='unordered/%s_test.go: %s'%(f,t['name'])
            i=t.get('input'+T); w=t.get('want'+T)
            call='Unordered.ofPtr Unordered.interpret%s %s'%(T,opt(F[T],i))
            if t.get('wantErr'): add(where,'(%s).isOk'%call,'false')
            else: add(where,'(%s).toOption'%call,'some %s'%opt(U[T],w))
for fn,ts,line in tables(R+'parser/proto_accept_test.go'):
    for t in ts:
        add('proto_accept_test.go: '+t['name'],'visits %s'%F['Proto'](t['inputProto']),S(t.get('wantBuffer')))

# ---- writing the modules ----
import re,os
OPEN={'{':'}','[':']','(':')','⟨':'⟩'}
def tree(s,i=0,close=None):
    """a bracketed term as a list of items (separated by commas), each a list of atoms and groups"""
    items=[[]]; cur=''
    def flush():
        nonlocal cur
        if cur: items[-1].append(cur); cur=''
    while i<len(s):
        ch=s[i]
        if ch==close: flush(); return items,i+1
        if ch=='"':
            j=i+1
            while s[j]!='"': j+=2 if s[j]=='\\' else 1
            cur+=s[i:j+1]; i=j+1
        elif ch in OPEN:
            pre=cur; cur=''
            sub,i=tree(s,i+1,OPEN[ch]); items[-1].append((pre,ch,sub))
            while i<len(s) and s[i] not in ' ,}])⟩': cur+=s[i]; i+=1
            if cur: items[-1].append(('glue',cur)); cur=''
        elif ch==',': flush(); items.append([]); i+=1
        elif ch==' ': flush(); i+=1
        else: cur+=ch; i+=1
    flush(); return items,i
def flat(x):
    if isinstance(x,str): return x
    if len(x)==2: return x[1]
    pre,o,items=x
    body=', '.join(flati(it) for it in items)
    pad=' ' if o=='{' and body else ''
    return pre+o+pad+body+pad+OPEN[o]
def flati(it):
    r=''
    for x in it: r+=('' if not r or (not isinstance(x,str) and len(x)==2) else ' ')+flat(x)
    return r
W=98
def fmt(x,col):
    """the text, written from this column on"""
    f=flat(x)
    if col+len(f)<=W: return f
    if isinstance(x,str): return gap(x,col)
    pre,o,items=x
    ind=col+len(pre)+(2 if o=='{' else 1)
    res=pre+o+(' ' if o=='{' else '')
    small=all(len(flati(it))<30 for it in items)
    c=ind
    for k,it in enumerate(items):
        t=fmti(it,c)
        if k and not(small and '\n' not in t and c+len(t)+2<=W):
            res=res.rstrip()+'\n'+' '*ind; c=ind; t=fmti(it,c)
        res+=t
        last=t.split('\n')[-1]
        c=(c if '\n' not in t else 0)+len(last)
        if k<len(items)-1: res+=', '; c+=2
    return res+(' ' if o=='{' else '')+OPEN[o]
def fmti(it,col):
    r='';c=col
    for x in it:
        if not isinstance(x,str) and len(x)==2: r+=x[1]; c+=len(x[1]); continue
        if r:
            if c+1+len(flat(x))>W and (c>W-30 or isinstance(x,str)): r+='\n'+' '*(col+2); c=col+2
            else: r+=' '; c+=1
        t=fmt(x,c); r+=t
        c=(c if '\n' not in t else 0)+len(t.split('\n')[-1])
    return r
def gap(p,col):
    """break a string literal that does not fit"""
    m=re.match(r'(c!)"((?:\\.|[^"\\])*)"$',p,re.S)
    if not m: return p
    units=re.findall(r'\\x..|\\u....|\\.|[^\\]',m.group(2),re.S)
    res='c!"'; c=col+3
    for k,u in enumerate(units):
        if c+len(u)>W-2 or (k and units[k-1]=='\\n'):
            res+='\\\n'+' '*(col+3); c=col+3
            if u==' ': u='\\x20'
        res+=u; c+=len(u)
    return res+'"'
def wrap(s,ind):
    items,_=tree(s)
    return ' '*ind+fmti(items[0],ind)
GROUPS=[('Lexer','the scanner, the lexer and positions',lambda w: w.split('_test.go')[0] in('scanner','position','meta/position','constant','enumType','fullIdent','messageType','emptyStatement')),
 ('Statements','the statements without a body',lambda w: w.split('_test.go')[0] in('comment','inlineComment','declaration','edition','extensions','field','import','mapField','option','package','reserved','syntax')),
 ('Bodies','the statements with a body',lambda w: w.split('_test.go')[0] in('enum','extend','groupField','message','oneof','service')),
 ('Files','whole files, the visitor and the unordered interpreter',lambda w: w.split('_test.go')[0] in('proto','proto_accept') or w.startswith('unordered/'))]
root=os.path.join(os.path.dirname(os.path.abspath(__file__)),'..','lean','Verif','Conformance')
done=0
for g,what,sel in GROUPS:
    L='import Verif.Conformance.Basic\n\n/-!\n# The test tables of the repository: %s\n\nGenerated by `conformance/gen.py`; see `Verif/Conformance/Basic.lean`.\n-/\n\nnamespace Verif.Conformance\nopen Verif Parser\n'%what
    prev=None
    for w,l,r in out:
        if not sel(w): continue
        done+=1
        f,n=w.split(': ',1)
        if f!=prev: L+='\n/-! ## %s -/\n'%f; prev=f
        L+='\n-- %s\nexample :\n%s\n%s\n  %s\n'%(n.replace('\n',' '),wrap('('+l+') =',4),wrap('('+r+') := by',4),'unordered_rfl' if w.startswith('unordered/') else 'kernel_rfl')
    open(os.path.join(root,g+'.lean'),'w').write(L+'\nend Verif.Conformance\n')
assert done==len(out)
print(done)
