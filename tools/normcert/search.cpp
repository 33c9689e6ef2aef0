// Finds the cutting tree for the checker lean/Verif/NormCheck.lean.  search <simplex|super> <n> <squared radius> <bound>
#include <cstdio>
#include <cmath>
#include <vector>
#include <cstdlib>
#include <cstring>
#include <string>
#include <algorithm>
using namespace std; typedef vector<double> V;
int n,m; double R,M; long leaves=0,terms=0;
bool leaf(const V&c,const V&r,const vector<V>&vs){
 double K=0;for(double q:r)K+=q*q;
 double P0=0,P1=0,rem=0;V lin(n,0);
 for(auto&v:vs){V u(n);double S=0,q=0;for(int i=0;i<n;i++){u[i]=c[i]-v[i];S+=u[i];q+=u[i]*u[i];}double rho=q-S*S/m;V L(n);double D=K;for(int i=0;i<n;i++){L[i]=2*(u[i]-S/m);D+=fabs(L[i])*r[i];}
  if(rho-D>=R) continue;
  double ss=sqrt(rho+K); double a=R-rho,b=rho+ss*ss,k=1/(2*ss);
  double p0=a*a*a*a*b*k,p1=(a*a*a*a-4*a*a*a*b)*k,p2=(6*a*a*b-4*a*a*a)*k,p3=(6*a*a-4*a*b)*k,p4=(b-4*a)*k,p5=k;
  P0+=p0;P1+=p1;for(int i=0;i<n;i++)lin[i]+=p1*L[i]; rem+=max(p2,0.)*D*D+fabs(p3)*D*D*D+max(p4,0.)*D*D*D*D+p5*D*D*D*D*D;}
 double t=P0+max(P1,0.)*K+rem;for(int i=0;i<n;i++)t+=fabs(lin[i])*r[i];
 return t<=M;}
vector<V> near(const V&c,const V&r,const vector<V>&vs){ vector<V> w; double K=0;for(double q:r)K+=q*q;
 for(auto&v:vs){double S=0,q=0;for(int i=0;i<n;i++){double u=c[i]-v[i];S+=u;q+=u*u;}double rho=q-S*S/m,D=K;for(int i=0;i<n;i++)D+=fabs(2*(c[i]-v[i]-S/m))*r[i]; if(rho-D<R+1e-9) w.push_back(v);} return w;}
string go(int f,const V&c,const V&r,const vector<V>&vs0){
 if(f>60){fprintf(stderr,"too deep\n");exit(1);}
 for(int i=0;i+1<n;i++) if(c[i]+r[i]<c[i+1]-r[i+1]) return ".out";
 double s=0;for(int i=0;i<n;i++)s+=c[i]-r[i]; if(2*s>n) return ".out";
 if(leaf(c,r,vs0)){leaves++;terms+=near(c,r,vs0).size();return ".leaf";}
 vector<V> vs=near(c,r,vs0); bool ref=vs.size()<vs0.size();
 int k=0;for(int i=1;i<n;i++)if(r[i]>r[k])k=i;
 V c1=c,c2=c,r1=r;r1[k]/=2;c1[k]-=r1[k];c2[k]+=r1[k];
 string t="(.cut "+to_string(k)+" "+go(f+1,c1,r1,vs)+" "+go(f+1,c2,r1,vs)+")";
 return ref?"(.ref "+t+")":t;}
int main(int c,char**a){bool sup=!strcmp(a[1],"super");n=atoi(a[2]);m=n+1;R=atof(a[3]);M=atof(a[4])*(1-1e-9);int lo=sup?-1:0,hi=sup?2:1;
 vector<V> vs;V v(n,lo);while(1){ bool ok=true; if(lo==0)for(int i=0;i+1<n;i++)if(v[i]<v[i+1])ok=false; if(ok)vs.push_back(v);int i=0;while(i<n&&++v[i]>hi)v[i++]=lo;if(i==n)break;}
 string t=go(0,V(n,.5),V(n,.5),vs);printf("%s\n",t.c_str());fprintf(stderr,"leaves=%ld terms=%ld\n",leaves,terms);}
