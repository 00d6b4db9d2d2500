import struct,zlib,sys
class H5:
    def __init__(s,p):
        s.b=open(p,'rb').read()
        b=s.b
        assert b[:8]==b'\x89HDF\r\n\x1a\n'
        s.ver=b[8]
        print('superblock',s.ver,file=sys.stderr)
        if s.ver==0:
            # offsets size at 13, lengths 14
            s.root=struct.unpack('<Q',b[24+32+8:24+32+16])[0]  # root symbol table entry: link name off, header addr
        else:
            s.root=struct.unpack('<Q',b[12+24:12+32])[0]
    def u(s,o,n): return int.from_bytes(s.b[o:o+n],'little')
    def messages(s,addr):
        b=s.b; out=[]
        if b[addr:addr+4]==b'OHDR':
            fl=b[addr+5]; o=addr+6
            if fl&0x20: o+=16
            if fl&0x10: o+=4
            n=1<<(fl&3); size=s.u(o,n); o+=n
            todo=[(o,o+size)]
            while todo:
                o,e=todo.pop(0)
                while o+4<=e:
                    t=b[o]; sz=s.u(o+1,2); mf=b[o+3]; o+=4
                    if fl&4: o+=2
                    out.append((t,o,sz))
                    if t==0x10:
                        a=s.u(o,8); l=s.u(o+8,8); todo.append((a+4,a+l-4))
                    o+=sz
            return out
        nm=s.u(addr+2,2); size=s.u(addr+8,4)
        todo=[(addr+16,addr+16+size)]
        while todo:
            o,e=todo.pop(0)
            while o+8<=e and len(out)<nm:
                t=s.u(o,2); sz=s.u(o+2,2); o+=8
                out.append((t,o,sz))
                if t==0x10: todo.append((s.u(o,8),s.u(o,8)+s.u(o+8,8)))
                o+=sz
        return out
    def links(s,addr):
        r={}
        for t,o,sz in s.messages(addr):
            if t==0x11:
                bt=s.u(o,8); heap=s.u(o+8,8)
                data=s.u(heap+24,8)
                def walk(a):
                    assert s.b[a:a+4]==b'TREE'
                    lvl=s.b[a+5]; n=s.u(a+6,2)
                    for i in range(n):
                        c=s.u(a+24+8+i*16,8)
                        if lvl>0: walk(c)
                        else:
                            assert s.b[c:c+4]==b'SNOD'
                            for k in range(s.u(c+6,2)):
                                e=c+8+40*k
                                no=s.u(e,8); ad=s.u(e+8,8)
                                q=data+no; nm=s.b[q:s.b.index(b'\0',q)].decode()
                                r[nm]=ad
                walk(bt)
            if t==6:
                fl=s.b[o+1]; p=o+2
                if fl&8: p+=1
                if fl&4: p+=8
                if fl&16: p+=1
                n=1<<(fl&3); ln=s.u(p,n); p+=n
                nm=s.b[p:p+ln].decode(); r[nm]=s.u(p+ln,8)
        return r
    def read(s,addr):
        filt=[]
        for t,o,sz in s.messages(addr):
            if t==1:
                v=s.b[o]; nd=s.b[o+1]; q=o+(8 if v==1 else 4); dims=[s.u(q+8*i,8) for i in range(nd)]
            if t==3:
                cls=s.b[o]&15; bits=s.b[o+1]; es=s.u(o+4,4); signed=bits&8
            if t==8:
                v=s.b[o]; lc=s.b[o+1]
                if v==3:
                    if lc==1: lay=('c',s.u(o+2,8),s.u(o+10,8))
                    elif lc==2:
                        nd=s.b[o+2]; lay=('k',s.u(o+3,8),[s.u(o+11+4*i,4) for i in range(nd)])
                    else: lay=('p',o+4,s.u(o+2,2))
                else: raise Exception(('layout',v,lc))
            if t==11:
                v=s.b[o]; n=s.b[o+1]; p=o+(8 if v==1 else 2)
                for i in range(n):
                    fid=s.u(p,2)
                    if v==1 or fid>=256: nl=s.u(p+2,2); p2=p+4
                    else: nl=0; p2=p+2
                    nv=s.u(p2+2,2); p=p2+4+ (nl+7)//8*8 if v==1 else p2+4+nl
                    p+=4*nv
                    if v==1 and nv%2: p+=4
                    filt.append(fid)
        import itertools
        fmt={(0,1):'b' if signed else 'B',(0,2):'h' if signed else 'H',(0,4):'i' if signed else 'I',(0,8):'q',(1,4):'f',(1,8):'d'}[(cls,es)]
        total=1
        for d in dims: total*=d
        be='>' if bits&1 else '<'
        if lay[0] in 'cp':
            return dims,list(struct.unpack(be+str(total)+fmt,s.b[lay[1]:lay[1]+total*es]))
        res=[0]*total
        nd=len(dims); cd=lay[2][:-1]
        def walk(a):
            lvl=s.b[a+5]; n=s.u(a+6,2); ks=8+8*(nd+1)
            for i in range(n):
                k=a+24+i*(ks+8)
                size=s.u(k,4); mask=s.u(k+4,4); off=[s.u(k+8+8*j,8) for j in range(nd)]
                c=s.u(k+ks,8)
                if lvl>0: walk(c); continue
                raw=s.b[c:c+size]
                for fi,f in reversed(list(enumerate(filt))):
                    if mask>>fi&1: continue
                    if f==1: raw=zlib.decompress(raw)
                    elif f==2:
                        m=len(raw)//es
                        raw=bytes(raw[j*m+i2] for i2 in range(m) for j in range(es))
                    elif f==3: raw=raw[:-4]
                    else: raise Exception(f)
                ct=1
                for x in cd: ct*=x
                v=struct.unpack(be+str(ct)+fmt,raw)
                for idx in range(cd[0]):
                    if off[0]+idx>=dims[0]: break
                    if nd==2:
                        w=min(cd[1],dims[1]-off[1])
                        base=(off[0]+idx)*dims[1]+off[1]
                        res[base:base+w]=v[idx*cd[1]:idx*cd[1]+w]
        walk(lay[1])
        return dims,res
if __name__=='__main__':
    for p in sys.argv[1:]:
        h=H5(p)
        L=h.links(h.root); print(p,{k:None for k in L})
        for k,a in L.items():
            try:
                d,v=h.read(a); print(k,d,v[:4],v[-4:])
            except Exception as e: print(k,'ERR',repr(e))
