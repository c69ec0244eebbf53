from fractions import Fraction as F
from math import comb
import math
def jac(n,a,b):
    # coefficients in x
    def mul(p,q):
        r=[F(0)]*(len(p)+len(q)-1)
        for i,x in enumerate(p):
            for j,y in enumerate(q): r[i+j]+=x*y
        return r
    tot=[F(0)]*(n+1)
    for s in range(n+1):
        p=[F(comb(n+a,n-s)*comb(n+b,s))]
        for _ in range(s): p=mul(p,[F(-1,2),F(1,2)])
        for _ in range(n-s): p=mul(p,[F(1,2),F(1,2)])
        for i,x in enumerate(p): tot[i]+=x
    return tot
def ev(p,x):
    r=F(0)
    for c in reversed(p): r=r*x+c
    return r
def der(p): return [i*c for i,c in enumerate(p)][1:]
def shift(p,r):
    p=list(p); n=len(p)
    for i in range(n):
        for j in range(n-2,i-1,-1): p[j]+=r*p[j+1]
    return p
S=10**30
def rnd(x): return F(round(x*S),S)
def absEv(l,t):
    r=F(0)
    for c in reversed(l): r=r*t+abs(c)
    return r
def up(x,dig=3):
    e=0
    if x==0: return F(1,10**20)
    while x*10**e<100: e+=1
    return F(math.ceil(x*10**e),10**e)
tol=F(10,2**52)
def certs(n,a):
    P=jac(n,a,0); dP=der(P); Q=jac(n+1,a,0)
    out=[]
    for i in range(n):
        g=F(math.cos(math.pi*(0.5*a+i+1-0.25)/(0.5*(1+a)+n)))
        x=g
        for _ in range(8): x=F(round((x-ev(P,x)/ev(dP,x))*10**60),10**60)
        r=rnd(x)
        T=up(abs(g-r)*F(11,10)+F(1,10**6))
        c=shift(P,r); rest=c[2:]
        A=absEv(der(c[1:]),T)
        B=abs(c[1])-T*absEv(rest,T)-T*A
        assert B>0 and 2*T*A<=B and 2*abs(c[0])<=B*T,(n,a,i,float(T),float(A),float(B))
        Fi=up(max((abs(c[0])+tol)/B,(2*abs(c[0])+B*T/2**99)/B))
        fac=F(-(2*n+a+2)*2**a,(n+a+1)*(n+1))
        w=rnd(fac/(ev(Q,r)*ev(dP,r)))
        X=shift(Q,r); Y=der(c)
        xi=Fi*absEv(X[1:],Fi); eta=Fi*absEv(Y[1:],Fi)
        d=(abs(fac-w*X[0]*Y[0])+w*(abs(X[0])*eta+abs(Y[0])*xi+xi*eta))/(w*(abs(X[0])-xi)*(abs(Y[0])-eta))
        out.append((r,T,Fi,w,float(d)))
    mx=max(max(c[4] for c in out),max(float(c[2])/2 for c in out))
    mm=0
    if a==0:
        for m in range(2*n): mm=max(mm,abs(sum(c[3]/2*((c[0]+1)/2)**m for c in out)-F(1,m+1)))
    print(n,a,'delta',mx,'mom',float(mm))
    return out
if __name__=='__main__':
    for n in range(1,13): certs(n,0)
    certs(2,1); certs(1,1)
